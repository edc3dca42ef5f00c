import Verif.Lemmas.PropOrder
import Verif.Lemmas.Trails
import Verif.Spec.PropOrder
import Verif.Thm.StlCall
import Verif.Thm.PropMirror
import Verif.Lemmas.PlaneOrder

/-!
# The order of the propellers (C118)
-/

namespace Verif
open V3 Act

/-! ### Calls about propellers -/

/-- calls that are not about propellers neither look at the propellers nor change them -/
theorem run_props (p : Plane) (l : List (String × PropGeom)) {op : PlaneOp} (h : op.prop? = none) :
    op.run { p with props := l } = { op.run p with props := l } := by
  cases op with
  | addWing name parent location side d =>
    simp only [PlaneOp.run, addWing_eq]
    cases mkWing name side d with
    | error e => rfl
    | ok w =>
      simp only
      cases targetOf (dictSet p.wings name p.heap.length) parent <;> rfl
  | airfoil i n e props =>
    simp only [PlaneOp.run, Plane.wingAirfoil]
    cases mkAirfoil n props <;> rfl
  | controlSurface i props =>
    simp only [PlaneOp.run, Plane.wingCtrl]
    cases mkCtrlSurf props <;> rfl
  | addProp n d => cases h
  | propAirfoil n af props => cases h
  | cgLocation x y z => rfl
  | setRefLengths a b => rfl

theorem run_props_kept (p : Plane) {op : PlaneOp} (h : op.prop? = none) : (op.run p).props = p.props := by
  have := run_props p p.props h
  exact (congrArg Plane.props this : _)

/-- calls about propellers change nothing else -/
theorem run_rest (p : Plane) {op : PlaneOp} (h : op.prop? ≠ none) : ({ op.run p with props := [] } : Plane) = { p with props := [] } := by
  cases op with
  | addProp n d => rfl
  | propAirfoil n af props =>
    simp only [PlaneOp.run, Plane.propAirfoil]
    cases mkAirfoil af props with
    | error e => rfl
    | ok a =>
      simp only
      cases hq : dictGet p.props n <;> rfl
  | _ => exact absurd rfl h

theorem run_prop_get (p p' : Plane) (op : PlaneOp) (k : String) (h : dictGet p.props k = dictGet p'.props k) :
    dictGet (op.run p).props k = if op.prop? = some k then dictGet (op.run p').props k else dictGet p'.props k := by
  by_cases hn : op.prop? = none
  · rw [run_props_kept p hn, if_neg (by simp [hn]), h]
  cases op with
  | addProp n d =>
    simp only [PlaneOp.run, Plane.addProp, dictGet_dictSet, PlaneOp.prop?, Option.some.injEq]
    by_cases e : k = n
    · simp [e]
    · rw [if_neg e, if_neg (Ne.symm e), h]
  | propAirfoil n af props =>
    simp only [PlaneOp.run, Plane.propAirfoil, PlaneOp.prop?, Option.some.injEq]
    by_cases e : n = k
    · subst e
      rw [if_pos rfl]
      cases mkAirfoil af props with
      | error e => exact h
      | ok a =>
        simp only
        rw [← h]
        cases hq : dictGet p.props n with
        | none => simp only; rw [hq, ← h, hq]
        | some q => simp [dictGet_dictSet]
    · rw [if_neg e]
      cases mkAirfoil af props with
      | error e => exact h
      | ok a =>
        simp only
        cases hq : dictGet p.props n with
        | none => exact h
        | some q =>
          simp only [dictGet_dictSet]
          rw [if_neg (Ne.symm e), h]
  | _ => exact absurd rfl hn

theorem run_other (p p' : Plane) (op : PlaneOp) (h : { p with props := [] } = { p' with props := [] }) :
    ({ op.run p with props := [] } : Plane) = if op.prop? = none then { op.run p' with props := [] } else { p' with props := [] } := by
  by_cases hn : op.prop? = none
  · rw [if_pos hn, ← run_props p [] hn, ← run_props p' [] hn, h]
  · rw [if_neg hn, run_rest p hn, h]

theorem runOps_prop_get (ops : List PlaneOp) (k : String) : ∀ p p' : Plane, dictGet p.props k = dictGet p'.props k →
    dictGet (runOps p ops).props k = dictGet (runOps p' (ops.filter fun op => op.prop? = some k)).props k := by
  induction ops with
  | nil => intro p p' h; exact h
  | cons op t ih =>
    intro p p' h
    have h1 := run_prop_get p p' op k h
    by_cases hk : op.prop? = some k
    · rw [List.filter_cons_of_pos (by simpa using hk)]
      rw [if_pos hk] at h1
      exact ih _ _ h1
    · rw [List.filter_cons_of_neg (by simpa using hk)]
      rw [if_neg hk] at h1
      exact ih _ _ h1

theorem runOps_other (ops : List PlaneOp) : ∀ p p' : Plane, ({ p with props := [] } : Plane) = { p' with props := [] } →
    ({ runOps p ops with props := [] } : Plane) = { runOps p' (ops.filter fun op => op.prop? = none) with props := [] } := by
  induction ops with
  | nil => intro p p' h; exact h
  | cons op t ih =>
    intro p p' h
    have h1 := run_other p p' op h
    by_cases hk : op.prop? = none
    · rw [List.filter_cons_of_pos (by simpa using hk)]
      rw [if_pos hk] at h1
      exact ih _ _ h1
    · rw [List.filter_cons_of_neg (by simpa using hk)]
      rw [if_neg hk] at h1
      exact ih _ _ h1

theorem perm_of_dictGet {α : Type*} {d d' : List (String × α)} (h : (d.map (·.1)).Nodup) (h' : (d'.map (·.1)).Nodup)
    (e : ∀ k, dictGet d k = dictGet d' k) : d.Perm d' := by
  refine (List.perm_ext_iff_of_nodup (.of_map _ h) (.of_map _ h')).2 fun kv => ?_
  obtain ⟨k, v⟩ := kv
  rw [mem_iff_dictGet h, mem_iff_dictGet h', e]

/-- the propellers of two aircraft built with the same calls in a different interleaving -/
theorem built_order (nm : String) (pos : Option V3) {ops ops' : List PlaneOp} (h : SameCalls ops ops') :
    ({ built nm pos ops with props := [] } : Plane) = { built nm pos ops' with props := [] } ∧
    (built nm pos ops).props.Perm (built nm pos ops').props := by
  refine ⟨?_, perm_of_dictGet (propsNamed_built nm pos ops).2 (propsNamed_built nm pos ops').2 fun k => ?_⟩
  · unfold built
    rw [runOps_other ops _ _ rfl, runOps_other ops' _ _ rfl, h none]
  · unfold built
    rw [runOps_prop_get ops k _ _ rfl, runOps_prop_get ops' k _ _ rfl, h (some k)]

/-! ### Construction of the object -/

/-- the constructor makes one slot per propeller, in order -/
theorem fold_iff {ι : Type} (mk : PropGeom → Except PyErr (PropM ι)) : ∀ (l : List (String × PropGeom)) (acc ms : List (String × PropM ι)),
    (∀ kv ∈ l, kv.2.name = kv.1) → (acc.map (·.1) ++ l.map (·.1)).Nodup →
    List.Forall₂ (fun kv m => m.1 = kv.1 ∧ mk kv.2 = .ok m.2) l ms →
    (l.map Prod.snd).foldlM (fun d q => do
      let m ← mk q
      return dictSet d q.name m) acc = .ok (acc ++ ms) := by
  intro l
  induction l with
  | nil =>
    intro acc ms _ _ h
    cases h
    simp
    rfl
  | cons kv t ih =>
    intro acc ms hn hd h
    cases h with
    | @cons _ m _ ms' h1 h2 =>
      obtain ⟨k, m⟩ := m
      obtain ⟨rfl, hm⟩ := h1
      simp only [List.map_cons, List.foldlM_cons]
      simp only at hm
      rw [hm]
      change (t.map Prod.snd).foldlM _ (dictSet acc kv.2.name m) = _
      have e1 : kv.2.name = kv.1 := hn kv (by simp)
      have e2 : dictSet acc kv.2.name m = acc ++ [(kv.1, m)] := by
        rw [e1]
        apply dictSet_append
        intro hc
        rw [List.nodup_append] at hd
        exact hd.2.2 _ hc _ (by simp) rfl
      rw [e2, ih (acc ++ [(kv.1, m)]) ms' (fun kv hkv => hn kv (by simp [hkv])) (by simpa using hd) h2]
      simp

/-- what the constructor makes of one propeller -/
def SlotOf {ι : Type} (table : String → ℝ → ℝ) (mem : String → ℕ → ℕ → Option ℝ) (cg : V3) (units : Except PyErr (Option String))
    (pts : Option (ι → V3)) (kv : String × PropGeom) (sl : PropSlot ι) : Prop :=
  ∃ u M, units = .ok u ∧ mkPropM table kv.2 cg u pts = .ok M ∧ sl = { name := kv.1, model := M, st := { mem := mem kv.1 } }

theorem openProps_iff {ι : Type} {table : String → ℝ → ℝ} {mem : String → ℕ → ℕ → Option ℝ} {p : Plane} (hp : PropsNamed p)
    {pts : Option (ι → V3)} {sls : List (PropSlot ι)} :
    openProps table mem p pts = .ok sls ↔ List.Forall₂ (SlotOf table mem p.cg p.getUnits pts) p.props sls := by
  have e : (fun (d : List (String × PropM ι)) (q : PropGeom) => do
      let u ← p.getUnits
      let m ← mkPropM table q p.cg u pts
      return dictSet d q.name m) = fun d q => do
      let m ← (do let u ← p.getUnits; mkPropM table q p.cg u pts)
      return dictSet d q.name m := by
    funext d q
    cases p.getUnits <;> rfl
  have hmk : ∀ (q : PropGeom) (M : PropM ι), (do let u ← p.getUnits; mkPropM table q p.cg u pts) = .ok M ↔
      ∃ u, p.getUnits = .ok u ∧ mkPropM table q p.cg u pts = .ok M := by
    intro q M
    cases p.getUnits with
    | error e =>
      constructor
      · intro h; cases h
      · rintro ⟨u, h, _⟩; cases h
    | ok u =>
      constructor
      · intro h; exact ⟨u, rfl, h⟩
      · rintro ⟨u', h, h'⟩; cases h; exact h'
  unfold openProps
  rw [e]
  constructor
  · intro h
    rcases hf : (p.props.map Prod.snd).foldlM (fun d q => do
      let m ← (do let u ← p.getUnits; mkPropM table q p.cg u pts)
      return dictSet d q.name m) ([] : List (String × PropM ι)) with e | d
    · rw [hf] at h
      cases h
    · rw [hf] at h
      cases h
      obtain ⟨ms, e2, hms⟩ := fold_slots _ p.props [] d hp.1 (by simpa using hp.2) hf
      rw [List.nil_append] at e2
      subst e2
      rw [List.forall₂_map_right_iff]
      refine hms.imp fun kv m hm => ?_
      obtain ⟨u, h1, h2⟩ := (hmk _ _).1 hm.2
      exact ⟨u, m.2, h1, h2, by rw [hm.1]⟩
  · intro h
    have : ∃ ms : List (String × PropM ι), List.Forall₂ (fun kv m => m.1 = kv.1 ∧ (do let u ← p.getUnits; mkPropM table kv.2 p.cg u pts) = .ok m.2) p.props ms ∧
        sls = ms.map fun kv => { name := kv.1, model := kv.2, st := { mem := mem kv.1 } } := by
      clear hp e
      revert h
      generalize p.props = l
      intro h
      induction h with
      | nil => exact ⟨[], .nil, rfl⟩
      | @cons kv sl t ts h1 _ ih =>
        obtain ⟨u, M, h1, h2, rfl⟩ := h1
        obtain ⟨ms, i1, rfl⟩ := ih
        exact ⟨(kv.1, M) :: ms, .cons ⟨rfl, (hmk _ _).2 ⟨u, h1, h2⟩⟩ i1, rfl⟩
    obtain ⟨ms, h1, rfl⟩ := this
    rw [fold_iff _ p.props [] ms hp.1 (by simpa using hp.2) h1]
    rfl

/-- the same calls in a different interleaving: a `MachUp` object can be constructed, with the same wing model and the same
propeller models in a different order -/
theorem open_order {table : String → ℝ → ℝ} {mem : String → ℕ → ℕ → Option ℝ} {p p' : Plane} (hn : PropsNamed p) (hn' : PropsNamed p')
    (hr : ({ p with props := [] } : Plane) = { p' with props := [] }) (hp : p.props.Perm p'.props) {o : Analyser}
    (h : openMachUp table mem p = .ok o) :
    ∃ sl' : Option (List (PropSlot (Fin (sectionsOf o.wing)))), openMachUp table mem p' = .ok ⟨o.wing, sl'⟩ ∧
      ((o.slots = none ∧ sl' = none) ∨ ∃ s s', o.slots = some s ∧ sl' = some s' ∧ s.Perm s') := by
  obtain ⟨hw, hs⟩ := slots_cases h
  have hheap : p'.heap = p.heap := (congrArg Plane.heap hr : _).symm
  have hwings : p'.wings = p.wings := (congrArg Plane.wings hr : _).symm
  have hpos : p'.position = p.position := (congrArg Plane.position hr : _).symm
  have hcg : p'.cg = p.cg := (congrArg Plane.cg hr : _).symm
  have hun : p'.units = p.units := (congrArg Plane.units hr : _).symm
  have hlat : p'.latRef = p.latRef := (congrArg Plane.latRef hr : _).symm
  have hlong : p'.longRef = p.longRef := (congrArg Plane.longRef hr : _).symm
  have hu : p'.getUnits = p.getUnits := by unfold Plane.getUnits; rw [hun]
  have hw' : mkWingPart p' = .ok o.wing := by rw [← hw]; exact mkWingPart_congr hheap hwings hpos hlat hlong
  unfold openMachUp
  rw [hw']
  change ∃ sl' : Option (List (PropSlot (Fin (sectionsOf o.wing)))), (if p'.props = [] then (.ok ⟨o.wing, none⟩ : Except PyErr Analyser)
    else (openProps table mem p' (pointsOf o.wing) >>= fun s => .ok ⟨o.wing, some s⟩)) = .ok ⟨o.wing, sl'⟩ ∧ _
  rcases hs with ⟨h0, hs⟩ | ⟨h0, s, hs, ho⟩
  · rw [if_pos (by rw [h0] at hp; exact hp.nil_eq.symm)]
    exact ⟨none, rfl, .inl ⟨hs, rfl⟩⟩
  · rw [if_neg (fun e => h0 (by rw [e] at hp; exact hp.eq_nil))]
    obtain ⟨s', k1, k2⟩ := List.perm_comp_forall₂ hp.symm ((openProps_iff hn).1 ho)
    rw [← hcg, ← hu] at k1
    rw [(openProps_iff hn').2 k1]
    exact ⟨some s', rfl, .inr ⟨s, s', hs, rfl, k2.symm⟩⟩

/-! ### The analyses -/

theorem follows_order {o : Analyser} {sl' : Option (List (PropSlot (Fin (sectionsOf o.wing))))} (hsome : sl'.isSome = o.slots.isSome)
    {p p' : Plane} (hw : p'.wings = p.wings) (hcg : p'.cg = p.cg) (hp : p.props.Perm p'.props) (simps : List ℝ → List ℝ → ℝ) (fuel : ℕ)
    (bad bad' : Act (LLState (Fin (sectionsOf o.wing)) × List (PropSlot (Fin (sectionsOf o.wing)))) (Option Loads)) (ps : Option PropDict) :
    Follows (o.backend p simps fuel bad) (Analyser.backend ⟨o.wing, sl'⟩ p' simps fuel bad') (fun s s' => s'.1 = s.1 ∧ s.2.Perm s'.2) ps ps where
  wings := by show (!p'.wings.isEmpty) = !p.wings.isEmpty; rw [hw]
  props := by
    show (!p'.props.isEmpty) = !p.props.isEmpty
    rw [Bool.eq_iff_iff]
    simp [List.isEmpty_iff]
    exact not_congr ⟨fun e => by rw [e] at hp; exact hp.eq_nil, fun e => by rw [e] at hp; exact hp.nil_eq.symm⟩
  Sw := rfl
  lat := rfl
  long := rfl
  propSolve := by
    rintro d ⟨l, sls⟩ ⟨l', sls'⟩ ⟨e1, e2⟩ ⟨tot, f⟩ s1 h
    simp only at e1 e2
    subst e1
    unfold Analyser.backend Analyser.backendOf at h ⊢
    simp only at h ⊢
    rw [hsome]
    by_cases ho : o.slots.isSome = true
    · rw [if_pos ho] at h ⊢
      rcases hq : propsSolve simps fuel (if (!p.wings.isEmpty) = true then pointsOf o.wing else none) (some d) (ps.getD []) (sls.map (·.withCg p.cg)) with ⟨r, s2⟩
      rw [hq] at h
      simp only at h
      cases h
      obtain ⟨tot', s2', k1, k2, k3⟩ := propsSolve_perm simps fuel (some d) (ps.getD []) _ (e2.map (·.withCg p.cg)) hq
      rw [hw, hcg, k1]
      exact ⟨_, _, rfl, ⟨k2, rfl⟩, rfl, k3⟩
    · rw [if_neg ho] at h
      cases h
  wingSolve := by
    rintro d c ⟨l, sls⟩ ⟨l', sls'⟩ ⟨e1, e2⟩ a s1 h
    simp only at e1 e2
    subst e1
    unfold Analyser.backend Analyser.backendOf at h ⊢
    simp only at h ⊢
    rw [hcg]
    by_cases ho : o.wing.isSome = true
    · rw [if_pos ho] at h ⊢
      rcases hq : llSolve (geomOf p.cg o.wing) l' "linear" (some d) c with ⟨r, l2⟩
      rw [hq] at h
      simp only at h
      cases h
      exact ⟨_, _, rfl, rfl, rfl, e2⟩
    · rw [if_neg ho] at h
      cases h

theorem answers_follow {ι : Type} {B B' : Backend ι} {R : B.σ → B'.σ → Prop} (f : Option B.π → Option B'.π)
    (F : ∀ ps, Follows B B' R ps (f ps)) (cg : V3) (calls : List (AnyCall B)) : ∀ (w : World B) (w' : World B'), R w.st w'.st →
    (∀ c ∈ calls, c.what.Direct) → ∀ as, Answers cg w calls as → Answers cg w' (calls.map fun c => ⟨c.what, c.aero, c.ctrl, f c.ps⟩) as := by
  induction calls with
  | nil =>
    intro w w' _ _ as h
    cases h
    exact .nil _
  | cons c t ih =>
    intro w w' hw hd as h
    cases h with
    | @cons _ w1 _ a _ as h1 h2 =>
      obtain ⟨b, w1', k1, rfl, k3⟩ := (F c.ps).perform cg (hd c (by simp)) { w with aero := c.aero, ctrl := c.ctrl }
        { w' with aero := c.aero, ctrl := c.ctrl } ⟨rfl, rfl, hw⟩ a w1 h1
      exact .cons k1 (ih w1 w1' k3.st (fun c hc => hd c (by simp [hc])) as h2)

/-- **C118.** Build an aircraft twice, with the calls for the different propellers (and the other calls) interleaved
differently.  If a `MachUp` object can be constructed for the first one, one can be constructed for the second one; and any
sequence of calls of `solve`, the derivatives and `find_aero_center` succeeds on the first object with some answers iff it
succeeds on the second one with the same answers. -/
theorem C118_order (table : String → ℝ → ℝ) (mem : String → ℕ → ℕ → Option ℝ) (simps : List ℝ → List ℝ → ℝ) (fuel : ℕ)
    (nm : String) (pos : Option V3) (ops ops' : List PlaneOp) (hops : SameCalls ops ops') (units : Option (Option String)) (p p' : Plane)
    (hp : p = { built nm pos ops with units }) (hp' : p' = { built nm pos ops' with units })
    (o : Analyser) (ho : openMachUp table mem p = .ok o) :
    ∃ sl' : Option (List (PropSlot (Fin (sectionsOf o.wing)))), openMachUp table mem p' = .ok ⟨o.wing, sl'⟩ ∧
      ∀ (bad bad' : _) (calls : List (Analysis × Option (AeroDict (Fin (sectionsOf o.wing))) × Option CtrlDict × Option PropDict)),
        (∀ c ∈ calls, c.1.Direct) → ∀ as : List Answer,
        (Answers p.cg (o.fresh p simps fuel bad none none) (calls.map fun c => ⟨c.1, c.2.1, c.2.2.1, c.2.2.2⟩) as ↔
          Answers p'.cg (Analyser.fresh ⟨o.wing, sl'⟩ p' simps fuel bad' none none) (calls.map fun c => ⟨c.1, c.2.1, c.2.2.1, c.2.2.2⟩) as) := by
  obtain ⟨b1, b2⟩ := built_order nm pos hops
  have hr : ({ p with props := [] } : Plane) = { p' with props := [] } := by
    rw [hp, hp']
    exact (congrArg (fun q : Plane => { q with units }) b1 : _)
  have hperm : p.props.Perm p'.props := by rw [hp, hp']; exact b2
  have hn : PropsNamed p := by rw [hp]; exact propsNamed_built nm pos ops
  have hn' : PropsNamed p' := by rw [hp']; exact propsNamed_built nm pos ops'
  have hwings : p'.wings = p.wings := (congrArg Plane.wings hr : _).symm
  have hcg : p'.cg = p.cg := (congrArg Plane.cg hr : _).symm
  obtain ⟨sl', k1, k2⟩ := open_order hn hn' hr hperm ho
  have hsome : sl'.isSome = o.slots.isSome := by
    rcases k2 with ⟨e1, e2⟩ | ⟨s, s', e1, e2, -⟩ <;> rw [e1, e2]
    rfl
  have hslots : (o.slots.getD []).Perm (sl'.getD []) := by
    rcases k2 with ⟨e1, e2⟩ | ⟨s, s', e1, e2, e3⟩ <;> rw [e1, e2]
    exact e3
  refine ⟨sl', k1, fun bad bad' calls hd as => ⟨fun h => ?_, fun h => ?_⟩⟩
  · have := answers_follow (B := o.backend p simps fuel bad) (B' := Analyser.backend ⟨o.wing, sl'⟩ p' simps fuel bad')
      (R := fun s s' => s'.1 = s.1 ∧ s.2.Perm s'.2) (fun ps => ps) (fun ps => follows_order hsome hwings hcg hperm simps fuel bad bad' ps) p.cg
      (calls.map fun c => ⟨c.1, c.2.1, c.2.2.1, c.2.2.2⟩) (o.fresh p simps fuel bad none none)
      (Analyser.fresh ⟨o.wing, sl'⟩ p' simps fuel bad' none none) ⟨rfl, hslots⟩ (by
        intro c hc
        simp only [List.mem_map] at hc
        obtain ⟨x, hx, rfl⟩ := hc
        exact hd x hx) as h
    rw [List.map_map] at this
    rw [hcg]
    exact this
  · have := answers_follow (B := Analyser.backend ⟨o.wing, sl'⟩ p' simps fuel bad') (B' := o.backend p simps fuel bad)
      (R := fun s s' => s'.1 = s.1 ∧ s.2.Perm s'.2) (fun ps => ps) (fun ps => follows_order (o := ⟨o.wing, sl'⟩) (sl' := o.slots) hsome.symm hwings.symm hcg.symm hperm.symm simps fuel bad' bad ps) p'.cg
      (calls.map fun c => ⟨c.1, c.2.1, c.2.2.1, c.2.2.2⟩) (Analyser.fresh ⟨o.wing, sl'⟩ p' simps fuel bad' none none)
      (o.fresh p simps fuel bad none none) ⟨rfl, hslots.symm⟩ (by
        intro c hc
        simp only [List.mem_map] at hc
        obtain ⟨x, hx, rfl⟩ := hc
        exact hd x hx) as h
    rw [List.map_map] at this
    rw [← hcg]
    exact this

/-! ### A pair of propellers turning in opposite directions -/

/-- a propeller and, under another name, its mirror image -/
noncomputable def pairOps : List PlaneOp :=
  rotorOps ++ [.addProp "twin" demoPropDims.mirror,
    .propAirfoil "twin" "sym" { al0 := some 0, cla := some 6, clMax := some 1.2, cml0 := some 0, cma := some 0, cd0 := some 0.01, cd1 := some 0, cd2 := some 0.01 }]

/-- the mirror image first -/
noncomputable def pairOps' : List PlaneOp :=
  [.addProp "twin" demoPropDims.mirror,
    .propAirfoil "twin" "sym" { al0 := some 0, cla := some 6, clMax := some 1.2, cml0 := some 0, cma := some 0, cd0 := some 0.01, cd1 := some 0, cd2 := some 0.01 }] ++ rotorOps

/-- C118: programs that differ in the order of the propellers -/
theorem pair_sameCalls : SameCalls pairOps pairOps' ∧ pairOps ≠ pairOps' := by
  constructor
  · intro k
    unfold pairOps pairOps' rotorOps
    simp only [List.cons_append, List.nil_append, List.filter_cons, PlaneOp.prop?, List.filter_nil]
    by_cases h1 : k = some "prop"
    · subst h1
      simp
    · by_cases h2 : k = some "twin"
      · subst h2
        simp
      · simp [Ne.symm h1, Ne.symm h2]
  · intro h
    have := congrArg List.head? h
    simp [pairOps, pairOps', rotorOps] at this

/-- the second propeller -/
noncomputable def twinProp : PropGeom := { demoProp.mirror with name := "twin" }

theorem pair_props : (built "pair" none pairOps).props = [("prop", demoProp), ("twin", twinProp)] := by
  have h : mkAirfoil "sym" { al0 := some 0, cla := some 6, clMax := some 1.2, cml0 := some 0, cma := some 0, cd0 := some 0.01, cd1 := some 0, cd2 := some 0.01 } = .ok demoFoil := by
    unfold mkAirfoil
    rw [if_pos (by simp [AirfoilProps.truthy])]
    rfl
  have h0 : (newPlane "pair" none).props = [] := rfl
  have h1 : mkProp "twin" demoPropDims.mirror = { (mkProp "prop" demoPropDims).mirror with name := "twin" } := by
    rw [← mkProp_mirror]
    rfl
  simp only [built, pairOps, rotorOps, runOps, PlaneOp.run, List.foldl, List.cons_append, List.nil_append, Plane.propAirfoil, h]
  simp [Plane.addProp, dictSet, dictGet, h0]
  constructor
  · simp [mkProp, demoPropDims, demoProp, dictSet]
  · rw [h1]
    simp [mkProp, demoPropDims, demoProp, twinProp, PropGeom.mirror, dictSet]

/-- the aircraft after it was given units -/
noncomputable def pair : Plane := { built "pair" none pairOps with units := some none }

theorem mkPropM_named {ι : Type} {table : String → ℝ → ℝ} {q : PropGeom} (n : String) {cg : V3} {u : Option String} {pts : Option (ι → V3)}
    {M : PropM ι} (h : mkPropM table q cg u pts = .ok M) :
    mkPropM table { q with name := n } cg u pts = .ok { M with geom := { M.geom with name := n } } := by
  revert h
  unfold mkPropM
  rw [show bladeAf { q with name := n } = bladeAf q from rfl]
  simp only
  split
  · intro h; cases h
  · split
    · intro h; cases h
    · cases bladeAf q with
      | error e => intro h; cases h
      | ok af =>
        simp only [bind, Except.bind]
        rw [show zetaAt { q with name := n } 0 = zetaAt q 0 from rfl, show bladePitch table { q with name := n } = bladePitch table q from rfl,
          show bladeChord table { q with name := n } = bladeChord table q from rfl]
        cases bladePitch table q (zetaAt q 0) (zetaAt q 0 * q.diameter * 0.5) (af 0).aL0 with
        | error e => intro h; cases h
        | ok _ =>
          simp only
          cases bladeChord table q (zetaAt q 0) with
          | error e => intro h; cases h
          | ok _ =>
            simp only
            cases calcMotor q.motor with
            | error e => intro h; cases h
            | ok m =>
              simp only
              simp only [show ∀ i, stnAt table { q with name := n } (af i) i = stnAt table q (af i) i from fun i => rfl]
              split
              · intro h; cases h; rfl
              · intro h; cases h

/-- For the aircraft with the two propellers, a `MachUp` object can be constructed and the first `solve` succeeds; the rolling moment is
the difference of those of two runs of the first propeller. -/
theorem pair_run (simps : List ℝ → List ℝ → ℝ) {M : PropM (Fin (sectionsOf none))} (hM : mkPropM (fun _ _ => 0) demoProp 0 none none = .ok M)
    {mem mem2 : ℕ → ℕ → Option ℝ} {o o2 : PropOut} {s1 s2 : PropSt}
    (r1 : runProp simps 1 M (some { Vmag := some 10, rho := some 1 }) [("J", .num 0.5)] { mem } = (.ok o, s1))
    (r0 : runProp simps 1 M (some { Vmag := some 10, rho := some 1 }) [("J", .num 0.5)] { mem := mem2 } = (.ok o2, s2)) :
    ∃ a : Analyser, openMachUp (fun _ _ => 0) (fun k => if k = "twin" then mem2 else mem) pair = .ok a ∧
    ∀ bad, ∃ T w', muSolve (some [("J", .num 0.5)]) (a.fresh pair simps 1 bad (some { Vmag := some 10, rho := some 1 }) none) =
      (.ok T, w') ∧ T.MX = o.M.x - o2.M.x := by
  have hg : M.geom = demoProp := (mkPropM_ok hM).2.2.1
  have hw : pair.wings = [] := rfl
  have hps : pair.props = [("prop", demoProp), ("twin", twinProp)] := pair_props
  have hcg : pair.cg = 0 := rfl
  have hMcg : M.cg = 0 := (mkPropM_ok hM).2.2.2.1
  have h0 : mir (0 : V3) = 0 := by ext <;> simp
  -- the second propeller
  have hM1 : mkPropM (fun _ _ => 0) demoProp.mirror 0 none (pointsOf none) = .ok (M.mirror none) := by
    have := mkPropM_mirror (ι := Fin (sectionsOf none)) (fun _ _ => 0) demoProp 0 none none (pointsOf none)
    rw [h0, hM] at this
    exact this
  have hM2 := mkPropM_named "twin" hM1
  set N : PropM (Fin (sectionsOf none)) := { (M.mirror none) with geom := { (M.mirror none).geom with name := "twin" } } with hN
  have hmir : MirM M N := by
    have := mirM_mirror M (none : Option (Fin (sectionsOf none) → V3))
    exact { this with }
  have hNcg : N.cg = 0 := by show mir M.cg = 0; rw [hMcg, h0]
  have r2 : runProp simps 1 N (some { Vmag := some 10, rho := some 1 }) [("J", .num 0.5)] { mem := mem2 } = (.ok o2.mirror, s2) := by
    have ha : FlowMir (some ({ Vmag := some 10, rho := some 1 } : AeroDict (Fin (sectionsOf none))))
        (some ({ Vmag := some 10, rho := some 1 } : AeroDict (Fin (sectionsOf none)))) := ⟨rfl, rfl, rfl, rfl, by simp⟩
    have := runProp_mirror simps 1 hmir ha [("J", .num 0.5)] { mem := mem2 }
    rw [this]
    rw [r0]
    rfl
  have l1 : ∀ k : String, k ≠ "J" → localPS [("J", .num 0.5)] k = .ok [("J", .num 0.5)] := by
    intro k hk
    unfold localPS
    rw [if_neg (by simp)]
    simp [dictGet, Ne.symm hk]
  set sls : List (PropSlot (Fin (sectionsOf none))) := [⟨"prop", M, { mem }, none⟩, ⟨"twin", N, { mem := mem2 }, none⟩] with hsls
  refine ⟨⟨none, some sls⟩, ?_, fun bad => ?_⟩
  · unfold openMachUp mkWingPart
    rw [if_pos hw]
    simp only [pure, Except.pure, bind, Except.bind]
    rw [if_neg (by rw [hps]; simp)]
    unfold openProps
    rw [hps, hcg]
    have hu : pair.getUnits = .ok none := rfl
    have hM' : mkPropM (fun _ _ => 0) demoProp 0 none (pointsOf none) = .ok M := hM
    have hN' : mkPropM (fun _ _ => 0) twinProp 0 none (pointsOf none) = .ok N := hM2
    simp only [List.map_cons, List.map_nil, List.foldlM_cons, List.foldlM_nil, hu, bind, Except.bind, pure, Except.pure]
    rw [hM', hN']
    rfl
  · have hslot : sls.map (·.withCg pair.cg) = sls := by
      have e : ∀ s : PropSlot (Fin (sectionsOf none)), s.model.cg = 0 → s.withCg 0 = s := by
        intro s hs
        unfold PropSlot.withCg
        rw [← hs]
      rw [hcg, hsls, List.map_cons, List.map_cons, List.map_nil, e _ hMcg, e _ hNcg]
    set w0 : World (Analyser.backend ⟨none, some sls⟩ pair simps 1 bad) :=
      Analyser.fresh ⟨none, some sls⟩ pair simps 1 bad (some { Vmag := some 10, rho := some 1 }) none with hw0
    obtain ⟨acc, hl⟩ := propsLoop_of_runs simps 1 (some { Vmag := some 10, rho := some 1 }) [("J", .num 0.5)]
      (L := [((⟨"prop", M, { mem }, none⟩ : PropSlot (Fin (sectionsOf none))), o, s1), (⟨"twin", N, { mem := mem2 }, none⟩, o2.mirror, s2)])
      (by
        intro x hx
        simp only [List.mem_cons, List.not_mem_nil, or_false] at hx
        rcases hx with rfl | rfl
        · exact ⟨_, l1 "prop" (by decide), r1⟩
        · exact ⟨_, l1 "twin" (by decide), r2⟩) {}
    have hMx : acc.M.x = o.M.x - o2.M.x := by
      rw [(propsLoop_ok hl).2.2.1]
      simp [vsum, PropOut.mirror]
      ring
    have hps2 : ∃ tot s2, propsSolve simps 1 none (some { Vmag := some 10, rho := some 1 }) [("J", .num 0.5)] sls =
        (.ok (tot, none), s2) ∧ tot.loads.MX = o.M.x - o2.M.x := by
      obtain ⟨⟨rL, rD, rS⟩, hrot⟩ := demo_rotate acc.F
      have hlast : ∃ T l, acc.last = some (T, l) := by
        have := (propsLoop_ok hl).2.2.2.1
        rw [this]
        exact ⟨_, _, rfl⟩
      obtain ⟨T, l, hlast⟩ := hlast
      have hf : ∃ a b c, propsForces simps 1 (some { Vmag := some 10, rho := some 1 }) [("J", .num 0.5)] sls = (.ok (a, b), c) ∧ a.loads.MX = o.M.x - o2.M.x := by
        unfold propsForces
        rw [show propsLoop simps 1 (some { Vmag := some 10, rho := some 1 }) [("J", .num 0.5)] sls {} = _ from hl]
        simp only [Option.getD_none, freestream_zero, hrot, hlast]
        exact ⟨_, _, _, rfl, hMx⟩
      obtain ⟨a, b, c, hf, hx⟩ := hf
      unfold propsSolve
      rw [bind_of_ok hf]
      exact ⟨_, _, rfl, hx⟩
    obtain ⟨tot, s2, hps2, hx⟩ := hps2
    have hB : (Analyser.backend ⟨none, some sls⟩ pair simps 1 bad).propSolve
        { Vmag := some 10, rho := some 1 } (some [("J", .num 0.5)]) w0.st = (.ok (tot, none), (w0.st.1, s2)) := by
      show (match propsSolve simps 1 (if !pair.wings.isEmpty then pointsOf none else none) _ [("J", .num 0.5)]
        (sls.map (·.withCg pair.cg)) with
        | (r, sls) => (r, (w0.st.1, sls))) = _
      rw [hw, hslot]
      exact congrArg (fun x => (x.1, (w0.st.1, x.2))) hps2
    have e1 : ∃ w1, solveProps (some [("J", .num 0.5)]) { Vmag := some 10, rho := some 1 } w0 = (.ok (some tot), w1) := by
      unfold solveProps
      rw [if_pos (show (Analyser.backend ⟨none, some sls⟩ pair simps 1 bad).hasProps = true from by
        show (!pair.props.isEmpty) = true; rw [hps]; rfl)]
      rw [bind_of_ok (show onSolver _ w0 = _ by unfold onSolver; rw [hB])]
      exact ⟨_, rfl⟩
    obtain ⟨w1, e1⟩ := e1
    have e2 : solveWings w1 = (.ok none, w1) := by
      unfold solveWings
      rw [if_neg (show ¬ (Analyser.backend ⟨none, some sls⟩ pair simps 1 bad).hasWings = true from by
        show ¬ (!pair.wings.isEmpty) = true; rw [hw]; simp)]
      rfl
    refine ⟨totalOf (some tot) (none : Option (Sol (Fin (sectionsOf none)))), ?_⟩
    unfold muSolve
    rw [get_bind, if_pos (show aeroGiven w0 = true from rfl)]
    unfold solveParts
    rw [bind_def, bind_of_ok (show getAero id w0 = (.ok { Vmag := some 10, rho := some 1 }, w0) from rfl), bind_of_ok e1, bind_of_ok e2]
    refine ⟨_, rfl, ?_⟩
    simpa [totalOf, Loads.add, Loads.zero] using hx

/-- C118: a `MachUp` object can be constructed for the aircraft with the two propellers, and the first `solve` succeeds -/
theorem pair_solve : ∃ (mem : String → ℕ → ℕ → Option ℝ) (o : Analyser), openMachUp (fun _ _ => 0) mem pair = .ok o ∧
    ∀ bad, ∃ T w', muSolve (some [("J", .num 0.5)]) (o.fresh pair (fun _ _ => 1) 1 bad (some { Vmag := some 10, rho := some 1 }) none) =
      (.ok T, w') := by
  obtain ⟨M, hM, -, hd, -⟩ := demo_ok (ι := Fin (sectionsOf none)) (fun _ _ => 0) 0 none none
  obtain ⟨mem, hr⟩ := demo_run hM 10 1 (J := 0.5) (by norm_num) (by norm_num) (fun _ => 1) _ 0 [("J", .num 0.5)]
    (fun s => set_J M 10 s (has_singleton _ _) (by norm_num) (by norm_num)) 15
  obtain ⟨o, s1, r1, -⟩ := hr (fun _ _ => 1) 0
  obtain ⟨a, h1, h2⟩ := pair_run (fun _ _ => 1) hM r1 r1
  exact ⟨_, a, h1, fun bad => let ⟨T, w', h, _⟩ := h2 bad; ⟨T, w', h⟩⟩

end Verif
