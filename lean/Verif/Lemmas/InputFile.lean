import Verif.Spec.InputFile
import Verif.Lemmas.Geometry

/-! # Lemmas about building a plane from a file -/

namespace Verif
open V3

theorem item_of_field {j : Json} {k : String} {v : Json} (h : j.field k = some v) : j.item k = .ok v := by
  cases j <;> simp_all [Json.field, Json.item, getKey]

theorem item_of_num {j : Json} {k : String} {x : ℝ} (h : j.Num k x) : ∃ v, j.item k = .ok v ∧ v.real = .ok x := by
  rcases h with h | ⟨n, h, rfl⟩
  · exact ⟨_, item_of_field h, rfl⟩
  · exact ⟨_, item_of_field h, rfl⟩

theorem item_of_optNum {j : Json} {k : String} {x : Option ℝ} (h : j.OptNum k x) :
    ∃ v, j.item k = .ok v ∧ v.optReal = .ok x := by
  rcases h with ⟨rfl, h⟩ | ⟨y, rfl, h | ⟨n, h, rfl⟩⟩
  · exact ⟨_, item_of_field h, rfl⟩
  · exact ⟨_, item_of_field h, rfl⟩
  · exact ⟨_, item_of_field h, rfl⟩

theorem optKey_of_mayNum {kvs : List (String × Json)} {k : String} {x : Option ℝ} (h : (Json.obj kvs).MayNum k x) :
    optKey Json.real kvs k = .ok x := by
  rcases h with ⟨rfl, h⟩ | ⟨y, rfl, h | ⟨n, h, rfl⟩⟩ <;> simp only [Json.field] at h <;> simp [optKey, h, Json.real]

theorem optKey_of_mayStr {kvs : List (String × Json)} {k : String} {x : Option String} (h : (Json.obj kvs).MayStr k x) :
    optKey Json.string kvs k = .ok x := by
  rcases h with ⟨rfl, h⟩ | ⟨y, rfl, h⟩ <;> simp only [Json.field] at h <;> simp [optKey, h, Json.string]

theorem except_ok_bind {α β : Type} (a : α) (f : α → Except PyErr β) : (Except.ok a >>= f) = f a := rfl

theorem except_error_bind {α β : Type} (e : PyErr) (f : α → Except PyErr β) :
    ((Except.error e : Except PyErr α) >>= f) = .error e := rfl

theorem readAirfoil_ok {j : Json} {a : FileAirfoil} (h : AirfoilIn j a) :
    ∃ p, j.item "properties" = .ok p ∧ ∀ s, readAirfoil p s = .ok (a.props s) := by
  obtain ⟨p, h0, h1, h2, h3, h4, h5, h6, h7, h8⟩ := h.props
  refine ⟨p, item_of_field h0, fun s => ?_⟩
  obtain ⟨v1, a1, b1⟩ := item_of_num h1
  obtain ⟨v2, a2, b2⟩ := item_of_num h2
  obtain ⟨v3, a3, b3⟩ := item_of_num h3
  obtain ⟨v4, a4, b4⟩ := item_of_num h4
  obtain ⟨v5, a5, b5⟩ := item_of_num h5
  obtain ⟨v6, a6, b6⟩ := item_of_num h6
  obtain ⟨v7, a7, b7⟩ := item_of_num h7
  obtain ⟨v8, a8, b8⟩ := item_of_num h8
  simp only [readAirfoil, a1, b1, a2, b2, a3, b3, a4, b4, a5, b5, a6, b6, a7, b7, a8, b8, except_ok_bind]
  rfl

theorem runStrict_nil (p : Plane) : runStrict p [] = .ok p := rfl

theorem runStrict_cons (p : Plane) (op : PlaneOp) (t : List PlaneOp) :
    runStrict p (op :: t) = (op.runStrict p) >>= fun q => runStrict q t := by
  simp [runStrict, List.foldlM_cons]

theorem runStrict_append (p : Plane) (a b : List PlaneOp) :
    runStrict p (a ++ b) = (runStrict p a) >>= fun q => runStrict q b := by
  simp [runStrict, List.foldlM_append]

theorem runStrict_airfoil (p : Plane) (id : ℕ) (n e : String) (props : AirfoilProps) :
    (PlaneOp.airfoil id n e props).runStrict p = (orRaise (p.wingAirfoil id n e props)).map Prod.snd := by
  simp only [PlaneOp.runStrict, orRaise]
  rcases p.wingAirfoil id n e props with ⟨_ | _, q⟩ <;> rfl

theorem runStrict_ctrl (p : Plane) (id : ℕ) (props : CtrlSurfProps) :
    (PlaneOp.controlSurface id props).runStrict p = (orRaise (p.wingCtrl id props)).map Prod.snd := by
  simp only [PlaneOp.runStrict, orRaise]
  rcases p.wingCtrl id props with ⟨_ | _, q⟩ <;> rfl

theorem runStrict_propAirfoil (p : Plane) (n af : String) (props : AirfoilProps) :
    (PlaneOp.propAirfoil n af props).runStrict p = (orRaise (p.propAirfoil n af props)).map Prod.snd := by
  simp only [PlaneOp.runStrict, orRaise]
  rcases p.propAirfoil n af props with ⟨_ | _, q⟩ <;> rfl

theorem addWingAirfoils_eq {kvs : List (String × Json)} {l : List FileAirfoil} (hne : l ≠ [])
    (h : List.Forall₂ (fun kv a => kv.1 = a.name ∧ AirfoilIn kv.2 a) kvs l) (p : Plane) (id : ℕ) :
    addWingAirfoils p id kvs = runStrict p (wingAirfoilOps id l) := by
  match kvs, l, h with
  | _, _, .nil => exact absurd rfl hne
  | [(n, j)], [a], .cons ⟨hn, ha⟩ .nil =>
    obtain ⟨q, h1, h2⟩ := readAirfoil_ok ha
    simp only at hn h1
    subst hn
    simp only [addWingAirfoils, wingAirfoilOps, runStrict_cons, runStrict_nil, runStrict_airfoil, h1, h2, except_ok_bind]
    rcases p.wingAirfoil id a.name "both" (a.props none) with ⟨_ | _, q⟩ <;> rfl
  | (n, j) :: (m, k) :: t, a :: b :: t', .cons ⟨hn, ha⟩ (.cons ⟨hm, hb⟩ _) =>
    obtain ⟨q, h1, h2⟩ := readAirfoil_ok ha
    obtain ⟨r, h3, h4⟩ := readAirfoil_ok hb
    simp only at hn h1 hm h3
    subst hn hm
    simp only [addWingAirfoils, wingAirfoilOps, runStrict_cons, runStrict_nil, runStrict_airfoil, h1, h2, h3, h4,
      except_ok_bind]
    rcases p.wingAirfoil id a.name "root" (a.props none) with ⟨_ | _, q⟩
    · rfl
    · simp only [orRaise, except_ok_bind, Except.map]
      rcases q.wingAirfoil id b.name "tip" (b.props none) with ⟨_ | _, q⟩ <;> rfl

theorem addPropAirfoils_eq {kvs : List (String × Json)} {l : List FileAirfoil} (hne : l ≠ [])
    (h : List.Forall₂ (fun kv a => kv.1 = a.name ∧ AirfoilIn kv.2 a) kvs l) (p : Plane) (nm : String) :
    addPropAirfoils p nm kvs = runStrict p (propAirfoilOps nm l) := by
  match kvs, l, h with
  | _, _, .nil => exact absurd rfl hne
  | [(n, j)], [a], .cons ⟨hn, ha⟩ .nil =>
    obtain ⟨q, h1, h2⟩ := readAirfoil_ok ha
    simp only at hn h1
    subst hn
    simp only [addPropAirfoils, propAirfoilOps, runStrict_cons, runStrict_nil, runStrict_propAirfoil, h1, h2,
      except_ok_bind]
    rcases p.propAirfoil nm a.name (a.props none) with ⟨_ | _, q⟩ <;> rfl
  | (n, j) :: (m, k) :: t, a :: b :: t', .cons ⟨hn, ha⟩ (.cons ⟨hm, hb⟩ _) =>
    obtain ⟨q, h1, h2⟩ := readAirfoil_ok ha
    obtain ⟨r, h3, h4⟩ := readAirfoil_ok hb
    simp only at hn h1 hm h3
    subst hn hm
    simp only [addPropAirfoils, propAirfoilOps, runStrict_cons, runStrict_nil, runStrict_propAirfoil, h1, h2, h3, h4,
      except_ok_bind]
    rcases p.propAirfoil nm a.name (a.props (some (.name "root"))) with ⟨_ | _, q⟩
    · rfl
    · simp only [orRaise, except_ok_bind, Except.map]
      rcases q.propAirfoil nm b.name (b.props (some (.name "tip"))) with ⟨_ | _, q⟩ <;> rfl

theorem addWingControl_eq {j : Json} {c : Option FileControl} (h : ControlIn j c) :
    ∃ o, j.item "control" = .ok o ∧ ∀ p id, addWingControl p id o = runStrict p (controlOps id c) := by
  cases c with
  | none =>
    obtain ⟨v, h, hv⟩ := h
    refine ⟨_, item_of_field h, fun p id => ?_⟩
    cases hv <;> simp [addWingControl, Json.truthy, controlOps, runStrict_nil]
  | some c =>
    obtain ⟨o, m, kvs, h0, h1, h2, h3, h4, h5, h6, rfl, h7, h8, h9, h10⟩ := h
    refine ⟨o, item_of_field h0, fun p id => ?_⟩
    have ho : o.truthy = true := by
      cases o with
      | obj l => cases l with
        | nil => simp [Json.field, dictGet] at h5
        | cons => rfl
      | _ => simp [Json.field] at h5
    obtain ⟨v1, a1, b1⟩ := item_of_num h1
    obtain ⟨v2, a2, b2⟩ := item_of_num h2
    obtain ⟨v3, a3, b3⟩ := item_of_num h3
    obtain ⟨v4, a4, b4⟩ := item_of_num h4
    have h5' := item_of_field h5
    have h6' := item_of_field h6
    have hm : readMix (.obj kvs) = .ok { aileron := c.aileron, elevator := c.elevator, rudder := c.rudder, flap := c.flap } := by
      simp only [readMix, Json.items, except_ok_bind, optKey_of_mayNum h7, optKey_of_mayNum h8, optKey_of_mayNum h9,
        optKey_of_mayNum h10]
      rfl
    rw [addWingControl, if_pos ho]
    simp only [a1, b1, a2, b2, a3, b3, a4, b4, h5', h6', hm, except_ok_bind, Json.boolean, controlOps, runStrict_cons,
      runStrict_nil, runStrict_ctrl]
    rcases p.wingCtrl id _ with ⟨_ | _, q⟩ <;> rfl

/-- the calls for one wing, on a plane with as many wing objects as wings came before -/
theorem addWingFromFile_eq {j : Json} {w : FileWing} (h : WingIn j w) (earlier : List FileWing)
    {conns : List (String × Option String × String)} (hc : dictGet conns w.name = some (connectTo earlier w))
    {p : Plane} (hp : p.heap.length = earlier.length) :
    addWingFromFile conns p w.name j = runStrict p (wingOps earlier w) := by
  obtain ⟨c, hc0, -, -, c1, c2, c3, c4⟩ := h.connect
  have hc0' := item_of_field hc0
  obtain ⟨v1, a1, b1⟩ := item_of_num c1
  obtain ⟨v2, a2, b2⟩ := item_of_num c2
  obtain ⟨v3, a3, b3⟩ := item_of_num c3
  obtain ⟨v4, a4, b4⟩ := item_of_num c4
  obtain ⟨v5, a5, b5⟩ := item_of_num h.span
  obtain ⟨v6, a6, b6⟩ := item_of_num h.sweep
  obtain ⟨v7, a7, b7⟩ := item_of_num h.dihedral
  obtain ⟨v8, a8, b8⟩ := item_of_num h.mount
  obtain ⟨v9, a9, b9⟩ := item_of_num h.washout
  obtain ⟨v10, a10, b10⟩ := item_of_num h.rootChord
  obtain ⟨v11, a11, b11⟩ := item_of_num h.tipChord
  have hs := item_of_field h.side
  have hm := item_of_field h.isMain
  have hg := item_of_field h.grid
  obtain ⟨⟨kvs, hk0, hk⟩, hne⟩ := h.airfoils
  have hk0' := item_of_field hk0
  obtain ⟨o, ho, hctrl⟩ := addWingControl_eq h.control
  simp only [addWingFromFile, hc, getKey, hc0', a1, b1, a2, b2, a3, b3, a4, b4, a5, b5, a6, b6, a7, b7, a8, b8, a9, b9,
    a10, b10, a11, b11, hs, hm, hg, except_ok_bind, Json.string, Json.boolean, Json.natural, hk0', Json.items, ho, hctrl,
    addWingAirfoils_eq hne hk]
  rw [wingOps, runStrict_cons]
  simp only [PlaneOp.runStrict]
  generalize hd : ({ position := some ⟨w.dx, w.dy, w.dz⟩, isMain := some w.isMain, yoffset := some w.yoffset
                     semispan := some w.semispan, rootChord := some w.rootChord, tipChord := some w.tipChord
                     sweep := some w.sweep, dihedral := some w.dihedral, mountAngle := some w.mount
                     washout := some w.washout, grid := some w.grid } : WingDims) = d
  have hid : ∀ id q, p.addWing w.name (connectTo earlier w).1 (connectTo earlier w).2 w.side d = (.ok id, q) →
      id = earlier.length := by
    intro id q hq
    unfold Plane.addWing at hq
    split at hq
    · simp at hq
    · dsimp only at hq
      split at hq
      · simp at hq
      · simp only [Prod.mk.injEq, Except.ok.injEq] at hq
        rw [← hq.1, hp]
  rcases hw : p.addWing w.name (connectTo earlier w).1 (connectTo earlier w).2 w.side d with ⟨_ | id, q⟩
  · rfl
  · rw [← hid id q hw]
    simp only [orRaise, except_ok_bind, runStrict_append]

/-- number of wing objects a call creates -/
def PlaneOp.newWings : PlaneOp → ℕ
  | .addWing .. => 1
  | _ => 0

theorem runStrict_length {p q : Plane} {op : PlaneOp} (h : op.runStrict p = .ok q) :
    q.heap.length = p.heap.length + op.newWings := by
  cases op with
  | addWing name parent location side d =>
    simp only [PlaneOp.runStrict] at h
    split at h
    · rename_i hw
      simp only [Except.ok.injEq] at h
      subst h
      unfold Plane.addWing at hw
      split at hw
      · simp at hw
      · dsimp only at hw
        split at hw
        · simp at hw
        · simp only [Prod.mk.injEq] at hw
          rw [← hw.2]
          simp [PlaneOp.newWings]
    · simp at h
  | airfoil id name e props =>
    simp only [PlaneOp.runStrict, Plane.wingAirfoil] at h
    cases hm : mkAirfoil name props with
    | error e => rw [hm] at h; simp at h
    | ok a => rw [hm] at h; simp only [Except.ok.injEq] at h; rw [← h]; simp [PlaneOp.newWings]
  | controlSurface id props =>
    simp only [PlaneOp.runStrict, Plane.wingCtrl] at h
    cases hm : mkCtrlSurf props with
    | error e => rw [hm] at h; simp at h
    | ok a => rw [hm] at h; simp only [Except.ok.injEq] at h; rw [← h]; simp [PlaneOp.newWings]
  | addProp name d => simp only [PlaneOp.runStrict, Except.ok.injEq] at h; rw [← h]; rfl
  | propAirfoil name af props =>
    simp only [PlaneOp.runStrict, Plane.propAirfoil] at h
    cases hm : mkAirfoil af props with
    | error e => rw [hm] at h; simp at h
    | ok a =>
      rw [hm] at h
      cases hg : dictGet p.props name with
      | none => rw [hg] at h; simp at h
      | some r => rw [hg] at h; simp only [Except.ok.injEq] at h; rw [← h]; rfl
  | cgLocation x y z => simp only [PlaneOp.runStrict, Except.ok.injEq] at h; rw [← h]; rfl
  | setRefLengths a b => simp only [PlaneOp.runStrict, Except.ok.injEq] at h; rw [← h]; rfl

theorem runStrict_length_noWing {ops : List PlaneOp}
    (hops : ∀ op ∈ ops, ∀ n pa l s d, op ≠ PlaneOp.addWing n pa l s d) :
    ∀ {p q : Plane}, runStrict p ops = .ok q → q.heap.length = p.heap.length := by
  induction ops with
  | nil => intro p q h; simp only [runStrict_nil, Except.ok.injEq] at h; rw [h]
  | cons op t ih =>
    intro p q h
    rw [runStrict_cons] at h
    cases ho : op.runStrict p with
    | error e => rw [ho] at h; simp [except_error_bind] at h
    | ok r =>
      rw [ho, except_ok_bind] at h
      rw [ih (fun o ho => hops o (List.mem_cons_of_mem _ ho)) h, runStrict_length ho]
      have := hops op List.mem_cons_self
      cases op <;> first | rfl | exact absurd rfl (this _ _ _ _ _)

theorem wingOps_length {earlier : List FileWing} {w : FileWing} {p q : Plane}
    (h : runStrict p (wingOps earlier w) = .ok q) : q.heap.length = p.heap.length + 1 := by
  rw [wingOps, runStrict_cons] at h
  revert h
  generalize hop : PlaneOp.addWing w.name _ _ _ _ = op
  intro h
  cases ho : op.runStrict p with
  | error e => rw [ho] at h; simp [except_error_bind] at h
  | ok r =>
    rw [ho, except_ok_bind] at h
    rw [runStrict_length_noWing _ h, runStrict_length ho, ← hop]
    · rfl
    intro o hmem
    rw [List.mem_append] at hmem
    rcases hmem with hmem | hmem
    · unfold wingAirfoilOps at hmem
      split at hmem
      · simp at hmem
      · simp only [List.mem_singleton] at hmem; subst hmem; intros; simp
      · simp only [List.mem_cons, List.not_mem_nil, or_false] at hmem
        rcases hmem with rfl | rfl <;> (intros; simp)
    · unfold controlOps at hmem
      split at hmem
      · simp at hmem
      · simp only [List.mem_singleton] at hmem; subst hmem; intros; simp

/-! ### The connection map -/

/-- what `id_map` holds when the wings `l` have been read -/
def idsOf (l : List FileWing) (i : ℕ) : Option String := (withId l i).map (·.name)

theorem idsOf_snoc (l : List FileWing) (w : FileWing) :
    Function.update (idsOf l) w.id (some w.name) = idsOf (l ++ [w]) := by
  funext i
  unfold idsOf withId
  rw [List.reverse_append]
  simp only [List.reverse_singleton, List.singleton_append, List.find?_cons, Function.update_apply]
  by_cases h : i = w.id
  · subst h; simp
  · rw [if_neg h]
    have : (decide (w.id = i)) = false := by simp; omega
    rw [this]

theorem withId_isSome {l : List FileWing} {i : ℕ} : (withId l i).isSome ↔ ∃ v ∈ l, v.id = i := by
  unfold withId
  rw [List.find?_isSome]
  simp

/-- the outcome of `_map_wing_connections` on one wing -/
theorem mapConnections_cons {j : Json} {w : FileWing} (h : WingIn j w) (earlier : List FileWing)
    (t : List (String × Json)) (conns : List (String × Option String × String)) :
    mapConnections ((w.name, j) :: t) (idsOf earlier) conns =
      if w.parentId = 0 ∨ ∃ v ∈ earlier ++ [w], v.id = w.parentId then
        mapConnections t (idsOf (earlier ++ [w])) (dictSet conns w.name (connectTo earlier w))
      else .error .key := by
  obtain ⟨c, hc0, hc1, hc2, -⟩ := h.connect
  have h0 := item_of_field h.id
  have h1 := item_of_field hc0
  have h2 := item_of_field hc1
  have h3 := item_of_field hc2
  rw [mapConnections]
  simp only [h0, h1, h2, h3, except_ok_bind, Json.natural, Json.string, idsOf_snoc]
  by_cases hz : w.parentId = 0
  · rw [if_pos hz, if_pos (Or.inl hz), connectTo, if_pos hz]
  · rw [if_neg hz, connectTo, if_neg hz]
    by_cases hv : ∃ v ∈ earlier ++ [w], v.id = w.parentId
    · rw [if_pos (Or.inr hv)]
      have := withId_isSome.2 hv
      rw [Option.isSome_iff_exists] at this
      obtain ⟨v, hv⟩ := this
      simp only [idsOf, hv, Option.map_some, getKey, except_ok_bind]
    · rw [if_neg (not_or.2 ⟨hz, hv⟩)]
      have : withId (earlier ++ [w]) w.parentId = none := by
        rw [← Option.not_isSome_iff_eq_none, withId_isSome]
        exact hv
      simp only [idsOf, this, Option.map_none, getKey, except_error_bind]

theorem mapConnections_ok {kvs : List (String × Json)} {ws : List FileWing}
    (h : List.Forall₂ (fun kv w => kv.1 = w.name ∧ WingIn kv.2 w) kvs ws) :
    ∀ (earlier : List FileWing) (conns : List (String × Option String × String)),
      (ws.map (·.name)).Nodup →
      (∀ pre w post, ws = pre ++ w :: post → w.parentId = 0 ∨ ∃ v ∈ earlier ++ pre ++ [w], v.id = w.parentId) →
      ∃ conns', mapConnections kvs (idsOf earlier) conns = .ok conns' ∧
        (∀ n, n ∉ ws.map (·.name) → dictGet conns' n = dictGet conns n) ∧
        ∀ pre w post, ws = pre ++ w :: post → dictGet conns' w.name = some (connectTo (earlier ++ pre) w) := by
  induction h with
  | nil =>
    intro earlier conns _ _
    exact ⟨conns, rfl, fun _ _ => rfl, fun pre w post h => by simp at h⟩
  | @cons kv w kvs ws hkv _ ih =>
    intro earlier conns hnd hpar
    obtain ⟨name, j⟩ := kv
    obtain ⟨rfl, hj⟩ := hkv
    simp only at hj ⊢
    rw [mapConnections_cons hj, if_pos (by simpa using hpar [] w ws rfl)]
    simp only [List.map_cons, List.nodup_cons] at hnd
    obtain ⟨conns', h1, h2, h3⟩ := ih (earlier ++ [w]) (dictSet conns w.name (connectTo earlier w)) hnd.2
      (fun pre v post hv => by
        have := hpar (w :: pre) v post (by rw [hv]; rfl)
        simpa using this)
    refine ⟨conns', h1, ?_, ?_⟩
    · intro n hn
      simp only [List.map_cons, List.mem_cons, not_or] at hn
      rw [h2 n hn.2]
      rw [dictGet_dictSet, if_neg (by tauto)]
    · intro pre v post hv
      cases pre with
      | nil =>
        simp only [List.nil_append, List.cons.injEq] at hv
        obtain ⟨rfl, rfl⟩ := hv
        rw [h2 _ hnd.1, List.append_nil]
        rw [dictGet_dictSet, if_pos rfl]
      | cons a pre =>
        simp only [List.cons_append, List.cons.injEq] at hv
        obtain ⟨rfl, rfl⟩ := hv
        have := h3 pre v post rfl
        simpa using this

theorem mapConnections_key {kvs : List (String × Json)} {ws : List FileWing}
    (h : List.Forall₂ (fun kv w => kv.1 = w.name ∧ WingIn kv.2 w) kvs ws) :
    ∀ (earlier : List FileWing) (conns : List (String × Option String × String)),
      (∃ pre w post, ws = pre ++ w :: post ∧ ¬ (w.parentId = 0 ∨ ∃ v ∈ earlier ++ pre ++ [w], v.id = w.parentId)) →
      mapConnections kvs (idsOf earlier) conns = .error .key := by
  induction h with
  | nil => rintro earlier conns ⟨pre, w, post, h, -⟩; simp at h
  | @cons kv w kvs ws hkv _ ih =>
    rintro earlier conns ⟨pre, v, post, hv, hbad⟩
    obtain ⟨name, j⟩ := kv
    obtain ⟨rfl, hj⟩ := hkv
    simp only at hj ⊢
    rw [mapConnections_cons hj]
    split_ifs with hc
    · cases pre with
      | nil =>
        simp only [List.nil_append, List.cons.injEq] at hv
        obtain ⟨rfl, rfl⟩ := hv
        simp only [List.append_nil] at hbad
        exact absurd hc hbad
      | cons a pre =>
        simp only [List.cons_append, List.cons.injEq] at hv
        obtain ⟨rfl, rfl⟩ := hv
        exact ih _ _ ⟨pre, v, post, rfl, by simpa using hbad⟩
    · rfl

theorem wings_eq {kvs : List (String × Json)} {ws : List FileWing}
    (h : List.Forall₂ (fun kv w => kv.1 = w.name ∧ WingIn kv.2 w) kvs ws)
    {conns : List (String × Option String × String)} :
    ∀ (earlier : List FileWing) (p : Plane), p.heap.length = earlier.length →
      (∀ pre w post, ws = pre ++ w :: post → dictGet conns w.name = some (connectTo (earlier ++ pre) w)) →
      kvs.foldlM (fun p kv => addWingFromFile conns p kv.1 kv.2) p = runStrict p (wingsOps earlier ws) := by
  induction h with
  | nil => intro earlier p _ _; rfl
  | @cons kv w kvs ws hkv _ ih =>
    intro earlier p hp hc
    obtain ⟨name, j⟩ := kv
    obtain ⟨rfl, hj⟩ := hkv
    simp only at hj
    rw [List.foldlM_cons, wingsOps, runStrict_append,
      addWingFromFile_eq hj earlier (by simpa using hc [] w ws rfl) hp]
    cases hr : runStrict p (wingOps earlier w) with
    | error e => rfl
    | ok q =>
      rw [except_ok_bind, except_ok_bind]
      refine ih (earlier ++ [w]) q ?_ ?_
      · rw [wingOps_length hr, hp]; simp
      · intro pre v post hv
        have := hc (w :: pre) v post (by rw [hv]; rfl)
        simpa using this

/-! ### Propellers -/

theorem readTable_ok {j : Json} {t : PropTable} (h : TableIn j t) : readTable j = .ok t := by
  obtain ⟨kvs, rfl, h1, h2, h3, h4, h5, h6⟩ := h
  simp only [readTable, Json.items, except_ok_bind, optKey_of_mayStr h1, optKey_of_mayNum h2, optKey_of_mayStr h3,
    optKey_of_mayNum h4, optKey_of_mayNum h5, optKey_of_mayNum h6]
  rfl

theorem readMotor_ok {j : Option Json} {t : MotorInfo} (h : MotorIn j t) : readMotor j = .ok t := by
  rcases h with ⟨rfl, rfl⟩ | ⟨o, kvs, rfl, rfl, hb, h1, h2, h3, h4, h5, h6, h7⟩
  · rfl
  · have hb' : optKey Json.boolean kvs "has_motor" = .ok t.hasMotor := by
      rcases hb with ⟨e, h⟩ | ⟨b, e, h⟩ <;> simp only [Json.field] at h <;> rw [e] <;> simp [optKey, h, Json.boolean]
    simp only [readMotor, Json.items, except_ok_bind, hb', optKey_of_mayNum h1, optKey_of_mayNum h2, optKey_of_mayNum h3,
      optKey_of_mayNum h4, optKey_of_mayNum h5, optKey_of_mayNum h6, optKey_of_mayNum h7]
    rfl

theorem readRot_ok {j : Json} {r : RotArg} (h : RotIn j r) :
    ∃ v, j.item "rotation_direction" = .ok v ∧ readRot v = .ok r := by
  cases r with
  | str s => exact ⟨_, item_of_field h, rfl⟩
  | num x =>
    rcases h with h | ⟨n, h, rfl⟩
    · exact ⟨_, item_of_field h, rfl⟩
    · exact ⟨_, item_of_field h, rfl⟩

theorem addPropFromFile_eq {j : Json} {q : FileProp} (h : PropIn j q) (p : Plane) :
    addPropFromFile p q.name j = runStrict p (propOps q) := by
  obtain ⟨c, hc0, c1, c2, c3⟩ := h.position
  obtain ⟨o, ho0, o1, o2⟩ := h.orientation
  have hc0' := item_of_field hc0
  have ho0' := item_of_field ho0
  obtain ⟨v1, a1, b1⟩ := item_of_num c1
  obtain ⟨v2, a2, b2⟩ := item_of_num c2
  obtain ⟨v3, a3, b3⟩ := item_of_num c3
  obtain ⟨v4, a4, b4⟩ := item_of_num o1
  obtain ⟨v5, a5, b5⟩ := item_of_num o2
  obtain ⟨v6, a6, b6⟩ := item_of_num h.diameter
  obtain ⟨v7, a7, b7⟩ := item_of_num h.hub
  have hn := item_of_field h.nodes
  have hb := item_of_field h.blades
  obtain ⟨v8, a8, b8⟩ := readRot_ok h.rot
  obtain ⟨t1, p1, q1⟩ := h.pitch
  obtain ⟨t2, p2, q2⟩ := h.chord
  have p1' := item_of_field p1
  have p2' := item_of_field p2
  obtain ⟨⟨kvs, hk0, hk⟩, hne⟩ := h.airfoils
  have hk0' := item_of_field hk0
  have hmot := h.motor
  have hobj : ∃ l, j = .obj l := by
    cases j <;> simp_all [Json.field]
  obtain ⟨l, rfl⟩ := hobj
  simp only [Json.field] at hmot
  simp only [addPropFromFile, hc0', ho0', a1, b1, a2, b2, a3, b3, a4, b4, a5, b5, a6, b6, a7, b7, a8, b8, hn, hb, p1',
    p2', readTable_ok q1, readTable_ok q2, hk0', except_ok_bind, Json.natural]
  simp only [Json.items, except_ok_bind, readMotor_ok hmot]
  rw [addPropAirfoils_eq hne hk]
  rfl

theorem props_eq {kvs : List (String × Json)} {qs : List FileProp}
    (h : List.Forall₂ (fun kv q => kv.1 = q.name ∧ PropIn kv.2 q) kvs qs) :
    ∀ (p : Plane), kvs.foldlM (fun p kv => addPropFromFile p kv.1 kv.2) p = runStrict p (qs.flatMap propOps) := by
  induction h with
  | nil => intro p; rfl
  | @cons kv q kvs qs hkv _ ih =>
    intro p
    obtain ⟨name, j⟩ := kv
    obtain ⟨rfl, hj⟩ := hkv
    rw [List.foldlM_cons, List.flatMap_cons, runStrict_append, addPropFromFile_eq hj]
    congr 1
    funext r
    exact ih r

/-! ### The unit system -/

/-- the plane with a unit system -/
def Plane.withUnits (p : Plane) (u : Option String) : Plane := { p with units := some u }

theorem runStrict_withUnits (u : Option String) (p : Plane) (op : PlaneOp) :
    op.runStrict (p.withUnits u) = (op.runStrict p).map (·.withUnits u) := by
  cases op with
  | addWing name parent location side d =>
    simp only [PlaneOp.runStrict, Plane.addWing, Plane.withUnits]
    cases mkWing name side d with
    | error e => rfl
    | ok w =>
      dsimp only
      match parent with
      | none => rfl
      | some q =>
        by_cases hq : q = ""
        · subst hq; rfl
        · cases hg : dictGet (dictSet p.wings name p.heap.length) q <;> simp [hq, hg] <;> rfl
  | airfoil id name e props =>
    simp only [PlaneOp.runStrict, Plane.wingAirfoil, Plane.withUnits]
    cases mkAirfoil name props <;> rfl
  | controlSurface id props =>
    simp only [PlaneOp.runStrict, Plane.wingCtrl, Plane.withUnits]
    cases mkCtrlSurf props <;> rfl
  | addProp name d => rfl
  | propAirfoil name af props =>
    simp only [PlaneOp.runStrict, Plane.propAirfoil, Plane.withUnits]
    cases mkAirfoil af props with
    | error e => rfl
    | ok a => cases hg : dictGet p.props name <;> simp <;> rfl
  | cgLocation x y z => rfl
  | setRefLengths a b => rfl

theorem runStrict_withUnits_list (u : Option String) (ops : List PlaneOp) : ∀ p : Plane,
    runStrict (p.withUnits u) ops = (runStrict p ops).map (·.withUnits u) := by
  induction ops with
  | nil => intro p; rfl
  | cons op t ih =>
    intro p
    rw [runStrict_cons, runStrict_cons, runStrict_withUnits]
    cases op.runStrict p with
    | error e => rfl
    | ok q => exact ih q

theorem runStrict_runOps {p q : Plane} {ops : List PlaneOp} (h : runStrict p ops = .ok q) : runOps p ops = q := by
  induction ops generalizing p with
  | nil => simp only [runStrict_nil, Except.ok.injEq] at h; exact h
  | cons op t ih =>
    rw [runStrict_cons] at h
    cases ho : op.runStrict p with
    | error e => rw [ho] at h; simp [except_error_bind] at h
    | ok r =>
      rw [ho, except_ok_bind] at h
      have hr : op.run p = r := by
        cases op <;> simp only [PlaneOp.runStrict, PlaneOp.run] at ho ⊢
        all_goals first
          | (simpa using ho)
          | (split at ho <;> first | (simp at ho; done) | (rename_i heq; rw [heq]; simpa using ho))
      rw [runOps, List.foldl_cons, hr]
      exact ih h

end Verif
