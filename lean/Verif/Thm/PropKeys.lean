import Verif.Spec.PropKeys
import Verif.Thm.PropNames

/-!
# Only the entries of a `prop_state` that have a meaning count (C153)
-/

namespace Verif
open V3 Act

theorem setPropDict_words {ι : Type} (M : PropM ι) (V : ℝ) {s s' : PropDict} (h : SameWords s s') (st : PropSt) :
    setPropDict M V s' st = setPropDict M V s st := by
  have h1 := h.words "J" (by simp)
  have h2 := h.words "rot_per_sec" (by simp)
  have h3 := h.words "brake_power" (by simp)
  have h4 := h.words "electric_throttle" (by simp)
  unfold setPropDict psReal
  rw [h1, h2, h3, h4]
  by_cases hs : s = []
  · rw [if_pos hs, if_pos (h.empty.2 hs)]
  · rw [if_neg hs, if_neg (fun e => hs (h.empty.1 e))]

theorem runProp_words {ι : Type} (M : PropM ι) (simps : List ℝ → List ℝ → ℝ) (fuel : ℕ) (aero : Option (AeroDict ι)) {s s' : PropDict}
    (h : SameWords s s') (st : PropSt) : runProp simps fuel M aero s' st = runProp simps fuel M aero s st := by
  unfold runProp
  rcases hf : propFlow aero with e | fl
  · rfl
  · rw [lift_ok_bind, lift_ok_bind, bind_def, bind_def, setPropDict_words M fl.V h]

theorem localPS_words {ps ps' : PropDict} {n : String} (hc : SameWords ps ps') (h : SameForProp (dictGet ps n) (dictGet ps' n)) :
    (∃ e, localPS ps n = .error e ∧ localPS ps' n = .error e) ∨
      ∃ s s', localPS ps n = .ok s ∧ localPS ps' n = .ok s' ∧ SameWords s s' := by
  unfold localPS
  by_cases he : ps = []
  · rw [if_pos he, if_pos (hc.empty.2 he)]
    exact .inr ⟨_, _, rfl, rfl, Iff.rfl, fun _ _ => rfl⟩
  · rw [if_neg he, if_neg (fun e => he (hc.empty.1 e))]
    generalize dictGet ps n = a at h
    generalize dictGet ps' n = b at h
    cases h with
    | same =>
      rcases a with _ | x | d
      · exact .inr ⟨_, _, rfl, rfl, hc⟩
      · by_cases hx : x = 0
        · simp only [if_pos hx]
          exact .inr ⟨_, _, rfl, rfl, Iff.rfl, fun _ _ => rfl⟩
        · simp only [if_neg hx]
          exact .inl ⟨_, rfl, rfl⟩
      · exact .inr ⟨_, _, rfl, rfl, Iff.rfl, fun _ _ => rfl⟩
    | dict hd => exact .inr ⟨_, _, rfl, rfl, hd⟩

theorem propsLoop_names {ι : Type} (simps : List ℝ → List ℝ → ℝ) (fuel : ℕ) (aero : Option (AeroDict ι)) (ps : PropDict) :
    ∀ (sls : List (PropSlot ι)) (acc : PropAcc), (propsLoop simps fuel aero ps sls acc).2.map PropSlot.name = sls.map PropSlot.name := by
  intro sls
  induction sls with
  | nil => intro acc; rfl
  | cons sl t ih =>
    intro acc
    unfold propsLoop
    cases localPS ps sl.name with
    | error e => rfl
    | ok s =>
      simp only
      rcases runProp simps fuel sl.model aero s sl.st with ⟨e | o, st⟩
      · rfl
      · simp only
        have := ih { F := acc.F + o.F, M := acc.M + o.M, last := some (o.T, o.l) }
        rcases hq : propsLoop simps fuel aero ps t { F := acc.F + o.F, M := acc.M + o.M, last := some (o.T, o.l) } with ⟨e | r, t'⟩ <;>
          rw [hq] at this
        · show sl.name :: t'.map PropSlot.name = _
          rw [this]; rfl
        · show sl.name :: t'.map PropSlot.name = _
          rw [this]; rfl

theorem propsForces_names {ι : Type} (simps : List ℝ → List ℝ → ℝ) (fuel : ℕ) (aero : Option (AeroDict ι)) (ps : PropDict)
    (sls : List (PropSlot ι)) : (propsForces simps fuel aero ps sls).2.map PropSlot.name = sls.map PropSlot.name := by
  have h := propsLoop_names simps fuel aero ps sls {}
  unfold propsForces
  rcases hq : propsLoop simps fuel aero ps sls {} with ⟨e | ⟨acc, outs⟩, l⟩ <;> rw [hq] at h
  · exact h
  · cases aero with
    | none => exact h
    | some d =>
      simp only
      cases freestream 1 (d.alpha.getD 0) (d.beta.getD 0) with
      | none => exact h
      | some u =>
        simp only
        cases rotateForces u acc.F with
        | error e => exact h
        | ok t => cases acc.last <;> exact h

theorem propsSolve_names {ι : Type} (simps : List ℝ → List ℝ → ℝ) (fuel : ℕ) (pts : Option (ι → V3)) (aero : Option (AeroDict ι)) (ps : PropDict)
    (sls : List (PropSlot ι)) : (propsSolve simps fuel pts aero ps sls).2.map PropSlot.name = sls.map PropSlot.name := by
  have h := propsForces_names simps fuel aero ps sls
  unfold propsSolve
  rw [bind_def]
  rcases hq : propsForces simps fuel aero ps sls with ⟨e | r, l⟩ <;> rw [hq] at h
  · exact h
  · simp only
    cases pts with
    | none => exact h
    | some p =>
      simp only
      rcases propFlow aero with e | fl
      · exact h
      · rw [lift_ok_bind, get_bind]
        split_ifs <;> exact h

theorem propsSolve_words {ι : Type} (simps : List ℝ → List ℝ → ℝ) (fuel : ℕ) (pts : Option (ι → V3)) (aero : Option (AeroDict ι)) {ps ps' : PropDict}
    {sls : List (PropSlot ι)} {names : List String} (hn : ∀ sl ∈ sls, sl.name ∈ names) (h : SameForProps names ps ps') :
    propsSolve simps fuel pts aero ps' sls = propsSolve simps fuel pts aero ps sls := by
  have : propsForces simps fuel aero ps' sls = propsForces simps fuel aero ps sls := by
    unfold propsForces
    rw [propsLoop_same simps fuel (ps := ps) (ps' := ps')]
    intro sl hsl
    rcases localPS_words h.common (h.named _ (hn sl hsl)) with h | ⟨s, s', h1, h2, h3⟩
    · exact .inl h
    · exact .inr ⟨s, s', h1, h2, fun st => (runProp_words sl.model simps fuel aero h3 st).symm⟩
  unfold propsSolve
  rw [bind_def, bind_def, this]

/-- the same solver objects, with propellers of these names -/
def SameNamed {n : ℕ} (names : List String) (s s' : LLState (Fin n) × List (PropSlot (Fin n))) : Prop :=
  s' = s ∧ ∀ sl ∈ s.2, sl.name ∈ names

theorem names_of_map {ι : Type} {names : List String} {l l' : List (PropSlot ι)} (h : l'.map PropSlot.name = l.map PropSlot.name)
    (hn : ∀ sl ∈ l, sl.name ∈ names) : ∀ sl ∈ l', sl.name ∈ names := by
  intro sl hs
  have : sl.name ∈ l.map PropSlot.name := h ▸ List.mem_map_of_mem hs
  obtain ⟨x, hx, e⟩ := List.mem_map.1 this
  exact e ▸ hn x hx

theorem imitates_words (o : Analyser) (p : Plane) (simps : List ℝ → List ℝ → ℝ) (fuel : ℕ)
    (bad : Act (LLState (Fin (sectionsOf o.wing)) × List (PropSlot (Fin (sectionsOf o.wing)))) (Option Loads)) {names : List String}
    (hb : ∀ st, (bad st).2.2.map PropSlot.name = st.2.map PropSlot.name) {ps ps' : Option PropDict}
    (h : SameForProps names (ps.getD []) (ps'.getD [])) :
    Imitates (o.backend p simps fuel bad) (o.backend p simps fuel bad) (SameNamed names) ps ps' where
  wings := rfl
  props := rfl
  Sw := rfl
  lat := rfl
  long := rfl
  propSolve := by
    rintro d ⟨l, sls⟩ s' ⟨rfl, hn⟩
    have hn' : ∀ sl ∈ sls.map (·.withCg p.cg), sl.name ∈ names := by
      intro sl hs
      obtain ⟨x, hx, rfl⟩ := List.mem_map.1 hs
      exact hn x hx
    show Outcome Same ((o.backendOf _ _ p.cg simps fuel bad).propSolve d ps (l, sls)).1 ((o.backendOf _ _ p.cg simps fuel bad).propSolve d ps' (l, sls)).1 ∧
      SameNamed names ((o.backendOf _ _ p.cg simps fuel bad).propSolve d ps (l, sls)).2 ((o.backendOf _ _ p.cg simps fuel bad).propSolve d ps' (l, sls)).2
    unfold Analyser.backendOf
    simp only
    by_cases ho : o.slots.isSome = true
    · rw [if_pos ho, if_pos ho, propsSolve_words simps fuel _ _ hn' h]
      have hk := propsSolve_names simps fuel (if (!p.wings.isEmpty) = true then pointsOf o.wing else none) (some d) (ps.getD [])
        (sls.map (·.withCg p.cg))
      exact ⟨Outcome.of_eq rfl, rfl, names_of_map hk hn'⟩
    · rw [if_neg ho, if_neg ho]
      exact ⟨rfl, rfl, hn⟩
  wingSolve := by
    rintro d c ⟨l, sls⟩ s' ⟨rfl, hn⟩
    show Outcome Same ((o.backendOf _ _ p.cg simps fuel bad).wingSolve d c (l, sls)).1 ((o.backendOf _ _ p.cg simps fuel bad).wingSolve d c (l, sls)).1 ∧
      SameNamed names ((o.backendOf _ _ p.cg simps fuel bad).wingSolve d c (l, sls)).2 ((o.backendOf _ _ p.cg simps fuel bad).wingSolve d c (l, sls)).2
    refine ⟨Outcome.of_eq rfl, rfl, ?_⟩
    unfold Analyser.backendOf
    simp only
    split_ifs <;> exact hn
  stall := by
    rintro s s' ⟨rfl, -⟩
    rfl
  bad := by
    rintro ⟨l, sls⟩ s' ⟨rfl, hn⟩
    exact ⟨Outcome.of_eq rfl, rfl, names_of_map (hb _) hn⟩

theorem openProps_names {ι : Type} {table : String → ℝ → ℝ} {mem : String → ℕ → ℕ → Option ℝ} {p : Plane} {pts : Option (ι → V3)}
    {s : List (PropSlot ι)} (h : openProps table mem p pts = .ok s) : ∀ sl ∈ s, sl.name ∈ p.props.map fun kv => kv.2.name := by
  have key : ∀ (l : List PropGeom) (d ms : List (String × PropM ι)), (l.foldlM (fun d q => do
      let u ← p.getUnits
      let m ← mkPropM table q p.cg u pts
      return dictSet d q.name m) d : Except PyErr _) = .ok ms → ∀ kv ∈ ms, kv.1 ∈ d.map Prod.fst ∨ kv.1 ∈ l.map PropGeom.name := by
    intro l
    induction l with
    | nil =>
      intro d ms e kv hk
      cases e
      exact .inl (List.mem_map_of_mem hk)
    | cons q l ih =>
      intro d ms e kv hk
      rw [List.foldlM_cons] at e
      cases hu : p.getUnits with
      | error x => rw [hu] at e; cases e
      | ok u =>
        cases hm : mkPropM table q p.cg u pts with
        | error x => rw [hu] at e; simp only [except_ok_bind] at e; rw [hm] at e; cases e
        | ok m =>
          have e' : (l.foldlM (fun d q => do
              let u ← p.getUnits
              let m ← mkPropM table q p.cg u pts
              return dictSet d q.name m) (dictSet d q.name m) : Except PyErr _) = .ok ms := by
            rw [← e, hu]
            simp only [except_ok_bind]
            rw [hm]
            rfl
          rcases ih _ ms e' kv hk with h | h
          · obtain ⟨x, hx, hx'⟩ := List.mem_map.1 h
            rcases mem_dictSet hx with h | rfl
            · exact .inl (hx' ▸ List.mem_map_of_mem h)
            · exact .inr (by rw [← hx']; simp)
          · exact .inr (by simp only [List.map_cons, List.mem_cons]; exact .inr h)
  unfold openProps at h
  cases hq : ((p.props.map Prod.snd).foldlM (fun (d : List (String × PropM ι)) q => do
    let u ← p.getUnits
    let m ← mkPropM table q p.cg u pts
    return dictSet d q.name m) [] : Except PyErr (List (String × PropM ι))) with
  | error e => rw [hq] at h; cases h
  | ok ms =>
    rw [hq] at h
    cases h
    intro sl hs
    obtain ⟨kv, hk, rfl⟩ := List.mem_map.1 hs
    rcases key _ _ _ hq kv hk with h | h
    · simp at h
    · simpa using h

/-- **C153.**  Two sessions with the same `MachUp` object and the same calls, except for entries of the `prop_state`s that mean nothing to
the propellers of the aircraft: entries under other keys than the four with a meaning and the names of propellers, and the order of the
entries.  Every call has the same outcome, writes the same files and leaves the caller's dictionaries the same.  (`bad`: what an analysis
with values that are not numbers does; it does not exchange the propellers.) -/
theorem C153_entries (table : String → ℝ → ℝ) (mem : String → ℕ → ℕ → Option ℝ) (simps : List ℝ → List ℝ → ℝ) (fuel : ℕ) (p : Plane)
    (o : Analyser) (ho : openMachUp table mem p = .ok o) (bad : _) (hb : ∀ st, (bad st).2.2.map PropSlot.name = st.2.map PropSlot.name)
    (hist hist' : List (Request (Fin (sectionsOf o.wing)))) (q q' : Request (Fin (sectionsOf o.wing)))
    (h : List.Forall₂ (Request.SameForProps (p.props.map fun kv => kv.2.name)) (hist ++ [q]) (hist' ++ [q'])) :
    let call (r : Request (Fin (sectionsOf o.wing))) : AnyCall (o.backend p simps fuel bad) := ⟨r.what, r.aero, r.ctrl, r.ps⟩
    let r := (call q).run p.cg (afterCalls p.cg (o.fresh p simps fuel bad none none) (hist.map call))
    let r' := (call q').run p.cg (afterCalls p.cg (o.fresh p simps fuel bad none none) (hist'.map call))
    r'.1 = r.1 ∧ r'.2.aero = r.2.aero ∧ r'.2.ctrl = r.2.ctrl ∧ r'.2.files = r.2.files := by
  intro call r r'
  have hn : ∀ sl ∈ o.slots.getD [], sl.name ∈ p.props.map fun kv => kv.2.name := by
    unfold openMachUp at ho
    cases hw : mkWingPart p with
    | error e => rw [hw] at ho; cases ho
    | ok w =>
      rw [hw] at ho
      simp only [except_ok_bind] at ho
      by_cases hp : p.props = []
      · rw [if_pos hp] at ho
        cases ho
        intro sl hs
        cases hs
      · rw [if_neg hp] at ho
        cases hs : openProps table mem p (pointsOf w) with
        | error e => rw [hs] at ho; cases ho
        | ok s =>
          rw [hs] at ho
          cases ho
          exact openProps_names hs
  generalize (p.props.map fun kv => kv.2.name) = names at h hn
  obtain ⟨k1, k2⟩ := imitate_calls (B := o.backend p simps fuel bad) (B' := o.backend p simps fuel bad)
    (R := SameNamed names) p.cg (hist := hist.map call) (hist' := hist'.map call) (c := call q) (c' := call q')
    (by
      rw [← List.map_singleton, ← List.map_singleton, ← List.map_append, ← List.map_append, List.forall₂_map_left_iff, List.forall₂_map_right_iff]
      exact h.imp fun a b hab => ⟨hab.what, hab.aero, hab.ctrl, imitates_words o p simps fuel bad hb hab.ps⟩)
    (w := o.fresh p simps fuel bad none none) (w' := o.fresh p simps fuel bad none none) rfl ⟨rfl, hn⟩
  exact ⟨k1, k2.aero, k2.ctrl, k2.files⟩

/-- C153: `prop_state={"J": 0.5}` and `prop_state={"throttel": 1, "J": 0.5, "porp": {"J": 2}}` for the aircraft with the propeller "prop", where
the first one has an answer -/
example : ∃ (mem : String → ℕ → ℕ → Option ℝ) (o : Analyser), openMachUp (fun _ _ => 0) mem rotor = .ok o ∧
    (∀ bad, ∃ T w', muSolve (some [("J", .num 0.5)]) (o.fresh rotor (fun _ _ => 1) 1 bad (some { Vmag := some 10, rho := some 1 }) none) = (.ok T, w')) ∧
    Request.SameForProps (ι := Fin (sectionsOf o.wing)) (rotor.props.map fun kv => kv.2.name)
      ⟨.solve none, some { Vmag := some 10, rho := some 1 }, none, some [("J", .num 0.5)]⟩
      ⟨.solve none, some { Vmag := some 10, rho := some 1 }, none, some [("throttel", .num 1), ("J", .num 0.5), ("porp", .dict [("J", 2)])]⟩ := by
  obtain ⟨mem, o, ho, h⟩ := rotor_solve
  have hps : rotor.props = [("prop", demoProp)] := rotor_props
  refine ⟨mem, o, ho, fun bad => let ⟨T, w', h1, _⟩ := h bad; ⟨T, w', h1⟩, rfl, rfl, rfl, ⟨by simp, ?_⟩, ?_⟩
  · intro k hk
    simp only [List.mem_cons, List.not_mem_nil, or_false] at hk
    rcases hk with rfl | rfl | rfl | rfl <;> simp [dictGet]
  · intro n hn
    rw [hps] at hn
    have hn : n = "prop" := by simpa [demoProp] using hn
    subst hn
    have h1 : dictGet ((some [("J", PSVal.num 0.5)] : Option PropDict).getD []) "prop" = none := by simp [dictGet]
    have h2 : dictGet ((some [("throttel", PSVal.num 1), ("J", .num 0.5), ("porp", .dict [("J", 2)])] : Option PropDict).getD []) "prop" = none := by
      simp [dictGet]
    rw [h1, h2]
    exact .same _

end Verif
