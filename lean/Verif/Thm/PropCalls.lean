import Verif.Spec.PropCalls
import Verif.Thm.WingCalls
import Verif.Lemmas.PlaneOrder

/-!
# A propeller is what the calls made for it say (C97)
-/

namespace Verif
open V3

/-- a property of the propeller `name` that a call does not touch -/
def CallKeepsProp (name : String) (P : PropGeom → Prop) (op : PlaneOp) : Prop :=
  match op with
  | .addProp n _ => n ≠ name
  | .propAirfoil n af props => n = name → ∀ a, mkAirfoil af props = .ok a →
      ∀ q, P q → P { q with airfoils := dictSet q.airfoils af a }
  | _ => True

theorem prop_keeps_run {name : String} {P : PropGeom → Prop} {p : Plane} (op : PlaneOp) (hk : CallKeepsProp name P op)
    (h : ∃ q, dictGet p.props name = some q ∧ P q) : ∃ q, dictGet (op.run p).props name = some q ∧ P q := by
  cases op with
  | addWing n parent location side d =>
    simp only [PlaneOp.run, addWing_eq]
    cases mkWing n side d with
    | error e => exact h
    | ok w => simp only; cases targetOf (dictSet p.wings n p.heap.length) parent <;> exact h
  | airfoil i n e props => simp only [PlaneOp.run, Plane.wingAirfoil]; cases mkAirfoil n props <;> exact h
  | controlSurface i props => simp only [PlaneOp.run, Plane.wingCtrl]; cases mkCtrlSurf props <;> exact h
  | addProp n d =>
    have hk : n ≠ name := hk
    simp only [PlaneOp.run, Plane.addProp, dictGet_dictSet]
    rw [if_neg hk.symm]
    exact h
  | propAirfoil n af props =>
    simp only [PlaneOp.run, Plane.propAirfoil]
    cases ha : mkAirfoil af props with
    | error e => exact h
    | ok a =>
      simp only
      cases hq : dictGet p.props n with
      | none => exact h
      | some q =>
        simp only [dictGet_dictSet]
        by_cases hn : n = name
        · subst hn
          obtain ⟨q', hq', hP⟩ := h
          rw [hq] at hq'
          obtain rfl := Option.some.inj hq'
          rw [if_pos rfl]
          exact ⟨_, rfl, hk rfl a ha q hP⟩
        · rw [if_neg (Ne.symm hn)]; exact h
  | cgLocation x y z => exact h
  | setRefLengths a b => exact h

theorem prop_keeps {name : String} {P : PropGeom → Prop} (ops : List PlaneOp) (hk : ∀ op ∈ ops, CallKeepsProp name P op) :
    ∀ {p : Plane}, (∃ q, dictGet p.props name = some q ∧ P q) → ∃ q, dictGet (runOps p ops).props name = some q ∧ P q := by
  induction ops with
  | nil => intro p h; exact h
  | cons op t ih =>
    intro p h
    exact ih (fun o ho => hk o (List.mem_cons_of_mem _ ho)) (prop_keeps_run op (hk op List.mem_cons_self) h)

theorem fresh_prop (nm : String) (pos : Option V3) (pre : List PlaneOp) (name : String) (d : PropDims) :
    dictGet (built nm pos (pre ++ [.addProp name d])).props name = some (mkProp name d) := by
  rw [built_split]
  simp [runOps, PlaneOp.run, Plane.addProp, dictGet_dictSet]

theorem mkProp_dims (name : String) (d : PropDims) : (mkProp name d).Dims name d := by
  constructor <;> simp only [mkProp]
  congr 1; ring

theorem keeps_dims {name : String} {d : PropDims} {op : PlaneOp} (h : ¬ AddsProp name op) :
    CallKeepsProp name (·.Dims name d) op := by
  cases op with
  | addProp n d' => rintro rfl; exact h ⟨d', rfl⟩
  | propAirfoil n af props => intro _ a _ q hq; exact { hq with }
  | _ => trivial

/-- **C97, dimensions.** A propeller has the dimensions given in the last `add_prop` call for its name, whatever else is
called before and afterwards. -/
theorem C97_dimensions (nm : String) (pos : Option V3) (pre post : List PlaneOp) (name : String) (d : PropDims)
    (hpost : ∀ op ∈ post, ¬ AddsProp name op) :
    ∃ q, dictGet (built nm pos (pre ++ .addProp name d :: post)).props name = some q ∧ q.Dims name d := by
  rw [show pre ++ PlaneOp.addProp name d :: post = (pre ++ [.addProp name d]) ++ post by simp, built_split]
  exact prop_keeps post (fun op ho => keeps_dims (hpost op ho)) ⟨_, fresh_prop nm pos pre name d, mkProp_dims name d⟩

theorem keeps_prop_airfoil {name af : String} {Q : Option Airfoil → Prop} {op : PlaneOp} (h : ¬ AddsProp name op)
    (h' : ¬ SetsPropAirfoil name af op) : CallKeepsProp name (fun q => Q (dictGet q.airfoils af)) op := by
  cases op with
  | addProp n d' => rintro rfl; exact h ⟨d', rfl⟩
  | propAirfoil n af' props =>
    intro hn a ha q hq
    simp only [dictGet_dictSet]
    by_cases he : af' = af
    · exfalso
      subst hn he
      refine h' ⟨props, rfl, ?_⟩
      by_contra hc
      obtain ⟨er, her⟩ := (mkAirfoil_iff af' props).2 hc
      rw [ha] at her; cases her
    · rw [if_neg (Ne.symm he)]; exact hq
  | _ => trivial

theorem mkAirfoil_spanPosition {name : String} {q : AirfoilProps} {a : Airfoil} (h : mkAirfoil name q = .ok a) :
    a.spanPosition = q.spanPosition := by
  unfold mkAirfoil at h
  by_cases ht : q.truthy = true
  · rw [if_pos ht] at h
    cases e1 : q.al0 <;> cases e2 : q.cla <;> cases e3 : q.clMax <;> cases e4 : q.cml0 <;> cases e5 : q.cma <;>
      cases e6 : q.cd0 <;> cases e7 : q.cd1 <;> cases e8 : q.cd2 <;>
      simp only [e1, e2, e3, e4, e5, e6, e7, e8, getKey, bind, Except.bind, pure, Except.pure] at h <;> cases h
    rfl
  · rw [if_neg ht] at h
    cases h
    simp only [AirfoilProps.truthy, Bool.or_eq_true, not_or, Option.isSome_iff_ne_none, ne_eq, not_not,
      Bool.not_eq_true] at ht
    rw [ht.1.1.1.1.1.1.1.1.1]
    rfl

/-- **C97, airfoils.** Under a given airfoil name a propeller carries the properties and the spanwise position of the
last accepted `airfoil` call for that propeller and that name ... -/
theorem C97_airfoil (nm : String) (pos : Option V3) (pre mid post : List PlaneOp) (name af : String) (d : PropDims)
    (props : AirfoilProps) (hc : props.Complete) (hmid : ∀ op ∈ mid, ¬ AddsProp name op)
    (hpost : ∀ op ∈ post, ¬ AddsProp name op ∧ ¬ SetsPropAirfoil name af op) :
    ∃ q a, dictGet (built nm pos (pre ++ .addProp name d :: mid ++ .propAirfoil name af props :: post)).props name = some q ∧
      dictGet q.airfoils af = some a ∧ a.Says af props ∧ a.spanPosition = props.spanPosition := by
  rw [show pre ++ PlaneOp.addProp name d :: mid ++ PlaneOp.propAirfoil name af props :: post =
    ((pre ++ PlaneOp.addProp name d :: mid) ++ [.propAirfoil name af props]) ++ post by simp, built_split]
  obtain ⟨a, ha, hsays⟩ := (mkAirfoil_iff af props).1 hc
  obtain ⟨q0, hq0, -⟩ := C97_dimensions nm pos pre mid name d hmid
  obtain ⟨q, hq, a', ha', h1, h2⟩ := prop_keeps
    (P := fun q => (fun o => ∃ a, o = some a ∧ a.Says af props ∧ a.spanPosition = props.spanPosition) (dictGet q.airfoils af)) post
    (fun op ho => keeps_prop_airfoil
      (Q := fun o => ∃ a, o = some a ∧ a.Says af props ∧ a.spanPosition = props.spanPosition) (hpost op ho).1 (hpost op ho).2)
    (p := built nm pos ((pre ++ PlaneOp.addProp name d :: mid) ++ [.propAirfoil name af props])) (by
      rw [built_split]
      simp only [runOps, List.foldl_cons, List.foldl_nil, PlaneOp.run, Plane.propAirfoil, ha, hq0]
      refine ⟨_, by rw [dictGet_dictSet, if_pos rfl], a, by simp only [dictGet_dictSet, if_pos], hsays,
        mkAirfoil_spanPosition ha⟩)
  exact ⟨q, a', hq, ha', h1, h2⟩

/-- ... and nothing if there was none since the propeller was added. -/
theorem C97_airfoil_none (nm : String) (pos : Option V3) (pre post : List PlaneOp) (name af : String) (d : PropDims)
    (hpost : ∀ op ∈ post, ¬ AddsProp name op ∧ ¬ SetsPropAirfoil name af op) :
    ∃ q, dictGet (built nm pos (pre ++ .addProp name d :: post)).props name = some q ∧ dictGet q.airfoils af = none := by
  rw [show pre ++ PlaneOp.addProp name d :: post = (pre ++ [.addProp name d]) ++ post by simp, built_split]
  exact prop_keeps (P := fun q => (fun o => o = none) (dictGet q.airfoils af)) post
    (fun op ho => keeps_prop_airfoil (Q := fun o => o = none) (hpost op ho).1 (hpost op ho).2)
    ⟨_, fresh_prop nm pos pre name d, rfl⟩

theorem props_keys_run (p : Plane) (op : PlaneOp) (name : String) :
    name ∈ (op.run p).props.map (·.1) ↔ name ∈ p.props.map (·.1) ∨ AddsProp name op := by
  have hno : ∀ {q : Plane} (_ : q.props = p.props) (_ : ¬ AddsProp name op),
      name ∈ q.props.map (·.1) ↔ name ∈ p.props.map (·.1) ∨ AddsProp name op := by
    intro q h h'; rw [h]; tauto
  cases op with
  | addWing n parent location side d =>
    refine hno ?_ (by rintro ⟨_, h⟩; cases h)
    simp only [PlaneOp.run, addWing_eq]
    cases mkWing n side d with
    | error e => rfl
    | ok w => simp only; cases targetOf (dictSet p.wings n p.heap.length) parent <;> rfl
  | airfoil i n e props =>
    refine hno ?_ (by rintro ⟨_, h⟩; cases h)
    simp only [PlaneOp.run, Plane.wingAirfoil]; cases mkAirfoil n props <;> rfl
  | controlSurface i props =>
    refine hno ?_ (by rintro ⟨_, h⟩; cases h)
    simp only [PlaneOp.run, Plane.wingCtrl]; cases mkCtrlSurf props <;> rfl
  | addProp n d =>
    simp only [PlaneOp.run, Plane.addProp, mem_keys_iff, dictGet_dictSet]
    by_cases h : n = name
    · subst h; simp [AddsProp]
    · rw [if_neg (Ne.symm h)]
      have : ¬ AddsProp name (.addProp n d) := by rintro ⟨d', h'⟩; cases h'; exact h rfl
      tauto
  | propAirfoil n af props =>
    have hA : ¬ AddsProp name (.propAirfoil n af props) := by rintro ⟨_, h⟩; cases h
    simp only [PlaneOp.run, Plane.propAirfoil]
    cases mkAirfoil af props with
    | error e => exact hno rfl hA
    | ok a =>
      simp only
      cases hq : dictGet p.props n with
      | none => exact hno rfl hA
      | some q =>
        simp only [mem_keys_iff, dictGet_dictSet]
        by_cases h : n = name
        · subst h; simp [hq]
        · rw [if_neg (Ne.symm h)]; tauto
  | cgLocation x y z => exact hno rfl (by rintro ⟨_, h⟩; cases h)
  | setRefLengths a b => exact hno rfl (by rintro ⟨_, h⟩; cases h)

theorem props_nodup_run (p : Plane) (op : PlaneOp) (h : (p.props.map (·.1)).Nodup) : ((op.run p).props.map (·.1)).Nodup := by
  cases op with
  | addWing n parent location side d =>
    simp only [PlaneOp.run, addWing_eq]
    cases mkWing n side d with
    | error e => exact h
    | ok w => simp only; cases targetOf (dictSet p.wings n p.heap.length) parent <;> exact h
  | airfoil i n e props => simp only [PlaneOp.run, Plane.wingAirfoil]; cases mkAirfoil n props <;> exact h
  | controlSurface i props => simp only [PlaneOp.run, Plane.wingCtrl]; cases mkCtrlSurf props <;> exact h
  | addProp n d => exact nodup_dictSet _ _ _ h
  | propAirfoil n af props =>
    simp only [PlaneOp.run, Plane.propAirfoil]
    cases mkAirfoil af props with
    | error e => exact h
    | ok a =>
      simp only
      cases dictGet p.props n with
      | none => exact h
      | some q => exact nodup_dictSet _ _ _ h
  | cgLocation x y z => exact h
  | setRefLengths a b => exact h

/-- **C97, which propellers there are.** The aircraft has exactly one propeller for every name `add_prop` was called
with, and no others. -/
theorem C97_names (nm : String) (pos : Option V3) (ops : List PlaneOp) :
    ((built nm pos ops).props.map (·.1)).Nodup ∧
    ∀ name, name ∈ (built nm pos ops).props.map (·.1) ↔ ∃ op ∈ ops, AddsProp name op := by
  have key : ∀ (ops : List PlaneOp) (p : Plane), (p.props.map (·.1)).Nodup →
      ((runOps p ops).props.map (·.1)).Nodup ∧
      ∀ name, name ∈ (runOps p ops).props.map (·.1) ↔ name ∈ p.props.map (·.1) ∨ ∃ op ∈ ops, AddsProp name op := by
    intro ops
    induction ops with
    | nil => intro p h; exact ⟨h, fun name => by simp [runOps]⟩
    | cons op t ih =>
      intro p h
      obtain ⟨h1, h2⟩ := ih (op.run p) (props_nodup_run p op h)
      refine ⟨h1, fun name => ?_⟩
      have := h2 name
      rw [props_keys_run] at this
      change _ ↔ _ at this
      simp only [List.mem_cons, exists_eq_or_imp]
      rw [show runOps p (op :: t) = runOps (op.run p) t from rfl, this]
      tauto
  have := key ops (newPlane nm pos) (by simp [newPlane])
  refine ⟨this.1, fun name => ?_⟩
  have h2 := this.2 name
  simpa [newPlane, built] using h2

theorem keys_dictSet {α : Type*} (d : List (String × α)) (k : String) (v : α) :
    (dictSet d k v).map (·.1) = if k ∈ d.map (·.1) then d.map (·.1) else d.map (·.1) ++ [k] := by
  induction d with
  | nil => simp [dictSet]
  | cons kv t ih =>
    obtain ⟨k', v'⟩ := kv
    by_cases h : k' = k
    · subst h; simp [dictSet]
    · rw [dictSet, if_neg h, List.map_cons, List.map_cons, ih]
      by_cases h2 : k ∈ t.map (·.1)
      · rw [if_pos h2, if_pos (List.mem_cons_of_mem _ h2)]
      · rw [if_neg h2, if_neg (by rw [List.mem_cons]; rintro (h3 | h3); exacts [h h3.symm, h2 h3])]; rfl

theorem props_order_run (p : Plane) (op : PlaneOp) :
    (op.run p).props.map (·.1) = p.props.map (·.1) ++ (propNames [op]).filter (fun n => decide (n ∉ p.props.map (·.1))) := by
  have hno : ∀ {q : Plane}, q.props = p.props → propNames [op] = [] →
      q.props.map (·.1) = p.props.map (·.1) ++ (propNames [op]).filter (fun n => decide (n ∉ p.props.map (·.1))) := by
    intro q h h'; rw [h, h']; simp
  cases op with
  | addWing n parent location side d =>
    refine hno ?_ rfl
    simp only [PlaneOp.run, addWing_eq]
    cases mkWing n side d with
    | error e => rfl
    | ok w => simp only; cases targetOf (dictSet p.wings n p.heap.length) parent <;> rfl
  | airfoil i n e props =>
    refine hno ?_ rfl
    simp only [PlaneOp.run, Plane.wingAirfoil]; cases mkAirfoil n props <;> rfl
  | controlSurface i props =>
    refine hno ?_ rfl
    simp only [PlaneOp.run, Plane.wingCtrl]; cases mkCtrlSurf props <;> rfl
  | addProp n d =>
    simp only [PlaneOp.run, Plane.addProp, keys_dictSet]
    rw [show propNames [PlaneOp.addProp n d] = [n] from rfl]
    by_cases h : n ∈ p.props.map (·.1)
    · rw [if_pos h, List.filter_cons_of_neg (by simpa using h)]; simp
    · rw [if_neg h, List.filter_cons_of_pos (by simpa using h)]; simp
  | propAirfoil n af props =>
    simp only [PlaneOp.run, Plane.propAirfoil]
    cases mkAirfoil af props with
    | error e => exact hno rfl rfl
    | ok a =>
      simp only
      cases hq : dictGet p.props n with
      | none => exact hno rfl rfl
      | some q =>
        have hm : n ∈ p.props.map (·.1) := by rw [mem_keys_iff, hq]; simp
        simp only [keys_dictSet]
        rw [if_pos hm]
        simp [propNames]
  | cgLocation x y z => exact hno rfl rfl
  | setRefLengths a b => exact hno rfl rfl

/-- **C97, in which order the propellers are.** The propellers of the aircraft are in the order in which their names were
first used, however often a name is used again. -/
theorem C97_order (nm : String) (pos : Option V3) (ops : List PlaneOp) :
    (built nm pos ops).props.map (·.1) = (propNames ops).eraseDups := by
  induction ops using List.reverseRecOn with
  | nil => rfl
  | append_singleton t op ih =>
    have e : propNames (t ++ [op]) = propNames t ++ propNames [op] := by simp [propNames]
    have hb : built nm pos (t ++ [op]) = op.run (built nm pos t) := by simp [built, runOps]
    rw [hb, props_order_run, ih, e, List.eraseDups_append]
    congr 1
    have hl : (propNames [op]).length ≤ 1 := (List.length_filterMap_le _ _)
    have hf : (propNames [op]).removeAll (propNames t) =
        (propNames [op]).filter (fun n => decide (n ∉ (propNames t).eraseDups)) := by
      simp only [List.removeAll]
      apply List.filter_congr
      intro x _
      simp [List.mem_eraseDups]
    rw [hf]
    generalize hx : (propNames [op]).filter _ = x
    have : x.length ≤ 1 := by rw [← hx]; exact (List.length_filter_le _ _).trans hl
    match x, this with
    | [], _ => rfl
    | [a], _ => rfl

/-! ### Non-vacuity: a propeller that is added twice, with two airfoils, one of them given twice -/

/-- acceptable keywords -/
noncomputable def someFoil (cd : ℝ) (s : SpanPos) : AirfoilProps :=
  { spanPosition := some s, al0 := some 0, cla := some 6, clMax := some 1.2, cml0 := some 0, cma := some 0
    cd0 := some cd, cd1 := some 0, cd2 := some 0 }

example : ∃ q a, dictGet (built "p" none ([.addProp "A" { nodes := some 7 }, .propAirfoil "A" "x" (someFoil 1 (.frac 0))] ++
      .addProp "A" { blades := some 3 } :: [.propAirfoil "A" "x" (someFoil 2 (.frac 0)), .addProp "B" {}] ++
      .propAirfoil "A" "x" (someFoil 3 (.name "root")) ::
      [.propAirfoil "A" "y" (someFoil 4 (.name "tip")), .propAirfoil "A" "x" { al0 := some 1 }])).props "A" = some q ∧
    dictGet q.airfoils "x" = some a ∧ a.cd0 = 3 ∧ a.spanPosition = some (.name "root") := by
  obtain ⟨q, a, h1, h2, h3, h4⟩ := C97_airfoil "p" none
    [.addProp "A" { nodes := some 7 }, .propAirfoil "A" "x" (someFoil 1 (.frac 0))]
    [.propAirfoil "A" "x" (someFoil 2 (.frac 0)), .addProp "B" {}]
    [.propAirfoil "A" "y" (someFoil 4 (.name "tip")), .propAirfoil "A" "x" { al0 := some 1 }] "A" "x" { blades := some 3 }
    (someFoil 3 (.name "root")) (by left; simp [someFoil]) (by simp [AddsProp])
    (by simp [AddsProp, SetsPropAirfoil, AirfoilProps.Complete])
  exact ⟨q, a, h1, h2, by rw [h3.cd0]; rfl, h4⟩

example : (built "p" none [.addProp "B" {}, .addWing "w" none "tip" "both" {}, .addProp "A" {}, .addProp "B" { blades := some 3 },
    .addProp "C" {}, .addProp "A" {}]).props.map (·.1) = ["B", "A", "C"] := by
  rw [C97_order]; decide

end Verif
