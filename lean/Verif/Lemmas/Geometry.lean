import Verif.Spec.Geometry
import Verif.Lemmas.Grid

/-! Helper lemmas: invariants of planes built through the API. -/

namespace Verif
open V3

/-! ### dictionaries -/

theorem dictSet_map {α β : Type*} (f : String → α → β) (d : List (String × α)) (k : String) (v : α) :
    (dictSet d k v).map (fun kv => (kv.1, f kv.1 kv.2)) = dictSet (d.map fun kv => (kv.1, f kv.1 kv.2)) k (f k v) := by
  induction d with
  | nil => simp [dictSet]
  | cons kv t ih =>
    obtain ⟨k', v'⟩ := kv
    simp only [dictSet, List.map_cons]
    split
    · rename_i h; subst h; simp
    · simp [ih]

theorem mem_dictSet {α : Type*} {d : List (String × α)} {k : String} {v : α} {kv : String × α}
    (h : kv ∈ dictSet d k v) : kv ∈ d ∨ kv = (k, v) := by
  induction d with
  | nil => simp [dictSet] at h; exact .inr h
  | cons kv' t ih =>
    obtain ⟨k', v'⟩ := kv'
    simp only [dictSet] at h
    split at h
    · rename_i hk; subst hk
      rcases List.mem_cons.1 h with h | h
      · exact .inr h
      · exact .inl (by simp [h])
    · rcases List.mem_cons.1 h with h | h
      · exact .inl (by simp [h])
      · rcases ih h with h | h
        · exact .inl (by simp [h])
        · exact .inr h

theorem dictGet_mem {α : Type*} {d : List (String × α)} {k : String} {v : α} (h : dictGet d k = some v) :
    (k, v) ∈ d := by
  induction d with
  | nil => simp [dictGet] at h
  | cons kv' t ih =>
    obtain ⟨k', v'⟩ := kv'
    simp only [dictGet] at h
    split at h
    · rename_i hk; subst hk; simp at h; simp [h]
    · simp [ih h]

theorem dictGet_dictSet {α : Type*} (d : List (String × α)) (k q : String) (v : α) :
    dictGet (dictSet d k v) q = if q = k then some v else dictGet d q := by
  induction d with
  | nil => simp [dictSet, dictGet, eq_comm]
  | cons kv' t ih =>
    obtain ⟨k', v'⟩ := kv'
    simp only [dictSet]
    by_cases h : k' = k
    · subst h
      simp only [if_true, dictGet]
      by_cases hq : k' = q
      · simp [hq]
      · simp [hq, Ne.symm hq]
    · simp only [h, if_false, dictGet, ih]
      by_cases hq : k' = q
      · subst hq; simp [h]
      · simp [hq]

/-! ### the shape of wings -/

/-- The two segments of a two-sided wing: the same data on opposite sides. -/
structure Twin (l r : Seg) : Prop where
  lside : l.side = .left
  rside : r.side = .right
  parent : l.parent = r.parent
  connect : (l.parent = .none) ∨ ∃ location, l.connectAt = "left_" ++ location ∧ r.connectAt = "right_" ++ location
  isMain : l.isMain = r.isMain
  dpos : l.dpos = r.dpos
  yoffset : l.yoffset = r.yoffset
  span : l.span = r.span
  rootChord : l.rootChord = r.rootChord
  tipChord : l.tipChord = r.tipChord
  sweep : l.sweep = r.sweep
  dihedral : l.dihedral = r.dihedral
  mount : l.mount = r.mount
  washout : l.washout = r.washout
  root : l.root = r.root
  tip : l.tip = r.tip
  cs : l.cs = r.cs
  n : l.n = r.n

/-- shape invariant of a wing object with identity `id`; `self` says whether it may be connected to itself -/
structure WingInv (id : ℕ) (w : Wing) : Prop where
  twin : ∀ l r, w = .both l r → Twin l r
  lside : ∀ l, w = .onlyLeft l → l.side = .left
  rside : ∀ r, w = .onlyRight r → r.side = .right
  parent_le : ∀ s ∈ w.segments, ∀ j, s.parent = .wing j → j ≤ id
  connect : ∀ s ∈ w.segments, s.parent ≠ .none → ∃ location, s.connectAt = s.side.str ++ "_" ++ location
  named : ∃ nm, ∀ s ∈ w.segments, s.name = s.side.str ++ "_" ++ nm

/-- Invariant of every plane built through the API. -/
structure PlaneInv (p : Plane) : Prop where
  ids : ∀ kv ∈ p.wings, kv.2 < p.heap.length
  wing : ∀ id w, p.heap[id]? = some w → WingInv id w

theorem newPlane_inv (name : String) (pos : Option V3) : PlaneInv (newPlane name pos) :=
  ⟨by simp [newPlane], by simp [newPlane]⟩

theorem mem_segments_mapSegs {f : Seg → Seg} {w : Wing} {s : Seg} (h : s ∈ (w.mapSegs f).segments) :
    ∃ s0 ∈ w.segments, s = f s0 := by
  cases w <;> simp [Wing.mapSegs, Wing.segments] at h ⊢ <;> tauto

theorem mkWing_inv {name side : String} {d : WingDims} {w : Wing} (h : mkWing name side d = .ok w) (id : ℕ) :
    WingInv id w := by
  unfold mkWing at h
  split at h
  · have := (Except.ok.inj h).symm; subst this
    refine ⟨?_, by simp, by simp, ?_, ?_, ⟨name, ?_⟩⟩
    · intro l r h; cases h; constructor <;> first | rfl | (left; rfl)
    · intro s hs j hj; simp [Wing.segments] at hs; rcases hs with rfl | rfl <;> simp [mkSeg] at hj
    · intro s hs hp; simp [Wing.segments] at hs; rcases hs with rfl | rfl <;> simp [mkSeg] at hp
    · intro s hs; simp [Wing.segments] at hs; rcases hs with rfl | rfl <;> rfl
  split at h
  · have := (Except.ok.inj h).symm; subst this
    refine ⟨by simp, by simp, ?_, ?_, ?_, ⟨name, ?_⟩⟩
    · intro r h; cases h; rfl
    · intro s hs j hj; simp [Wing.segments] at hs; subst hs; simp [mkSeg] at hj
    · intro s hs hp; simp [Wing.segments] at hs; subst hs; simp [mkSeg] at hp
    · intro s hs; simp [Wing.segments] at hs; subst hs; rfl
  split at h
  · have := (Except.ok.inj h).symm; subst this
    refine ⟨by simp, ?_, by simp, ?_, ?_, ⟨name, ?_⟩⟩
    · intro r h; cases h; rfl
    · intro s hs j hj; simp [Wing.segments] at hs; subst hs; simp [mkSeg] at hj
    · intro s hs hp; simp [Wing.segments] at hs; subst hs; simp [mkSeg] at hp
    · intro s hs; simp [Wing.segments] at hs; subst hs; rfl
  · exact absurd h (by simp)

theorem WingInv.connectTo {id : ℕ} {w : Wing} (h : WingInv id w) (t : Parent) (location : String)
    (ht : ∀ j, t = .wing j → j ≤ id) : WingInv id (w.mapSegs (·.connectTo t location)) := by
  refine ⟨?_, ?_, ?_, ?_, ?_, ?_⟩
  · intro l r hw
    cases w with
    | both l0 r0 =>
      simp only [Wing.mapSegs, Wing.both.injEq] at hw
      obtain ⟨rfl, rfl⟩ := hw
      have h0 := h.twin l0 r0 rfl
      refine { h0 with parent := rfl, connect := .inr ⟨location, ?_, ?_⟩ }
      · simp [Seg.connectTo, h0.lside, Side.str]
      · simp [Seg.connectTo, h0.rside, Side.str]
    | onlyLeft l0 => simp [Wing.mapSegs] at hw
    | onlyRight r0 => simp [Wing.mapSegs] at hw
  · intro l hw
    cases w <;> simp [Wing.mapSegs] at hw
    rename_i l0; subst hw; exact h.lside l0 rfl
  · intro l hw
    cases w <;> simp [Wing.mapSegs] at hw
    rename_i l0; subst hw; exact h.rside l0 rfl
  · intro s hs j hj
    obtain ⟨s0, hs0, rfl⟩ := mem_segments_mapSegs hs
    exact ht j hj
  · intro s hs _
    obtain ⟨s0, hs0, rfl⟩ := mem_segments_mapSegs hs
    exact ⟨location, rfl⟩
  · obtain ⟨nm, hnm⟩ := h.named
    refine ⟨nm, fun s hs => ?_⟩
    obtain ⟨s0, hs0, rfl⟩ := mem_segments_mapSegs hs
    exact hnm s0 hs0

/-- a segment update that touches neither side, parent, connection nor name, and treats twins alike -/
structure Harmless (f : Seg → Seg) : Prop where
  side : ∀ s, (f s).side = s.side
  parent : ∀ s, (f s).parent = s.parent
  connectAt : ∀ s, (f s).connectAt = s.connectAt
  name : ∀ s, (f s).name = s.name
  n : ∀ s, (f s).n = s.n
  twin : ∀ l r, Twin l r → Twin (f l) (f r)

theorem Harmless.inv {f : Seg → Seg} (hf : Harmless f) {id : ℕ} {w : Wing} (h : WingInv id w) :
    WingInv id (w.mapSegs f) := by
  refine ⟨?_, ?_, ?_, ?_, ?_, ?_⟩
  · intro l r hw
    cases w with
    | both l0 r0 =>
      simp only [Wing.mapSegs, Wing.both.injEq] at hw
      obtain ⟨rfl, rfl⟩ := hw
      exact hf.twin _ _ (h.twin l0 r0 rfl)
    | onlyLeft l0 => simp [Wing.mapSegs] at hw
    | onlyRight r0 => simp [Wing.mapSegs] at hw
  · intro l hw
    cases w <;> simp [Wing.mapSegs] at hw
    subst hw; rw [hf.side]; exact h.lside _ rfl
  · intro l hw
    cases w <;> simp [Wing.mapSegs] at hw
    subst hw; rw [hf.side]; exact h.rside _ rfl
  · intro s hs j hj
    obtain ⟨s0, hs0, rfl⟩ := mem_segments_mapSegs hs
    rw [hf.parent] at hj
    exact h.parent_le s0 hs0 j hj
  · intro s hs hp
    obtain ⟨s0, hs0, rfl⟩ := mem_segments_mapSegs hs
    rw [hf.parent] at hp
    rw [hf.connectAt, hf.side]
    exact h.connect s0 hs0 hp
  · obtain ⟨nm, hnm⟩ := h.named
    refine ⟨nm, fun s hs => ?_⟩
    obtain ⟨s0, hs0, rfl⟩ := mem_segments_mapSegs hs
    rw [hf.name, hf.side]
    exact hnm s0 hs0

theorem harmless_setAirfoil (e : String) (a : Airfoil) : Harmless (·.setAirfoil e a) := by
  refine ⟨?_, ?_, ?_, ?_, ?_, ?_⟩
  on_goal 6 =>
    intro l r h
    by_cases h1 : e = "both"
    · simp only [Seg.setAirfoil, if_pos h1]; exact { h with root := rfl, tip := rfl }
    by_cases h2 : e = "root"
    · simp only [Seg.setAirfoil, if_neg h1, if_pos h2]; exact { h with root := rfl }
    by_cases h3 : e = "tip"
    · simp only [Seg.setAirfoil, if_neg h1, if_neg h2, if_pos h3]; exact { h with tip := rfl }
    · simp only [Seg.setAirfoil, if_neg h1, if_neg h2, if_neg h3]; exact h
  all_goals (intro s; simp only [Seg.setAirfoil]; split <;> [rfl; (split <;> [rfl; (split <;> rfl)])])

theorem harmless_cs (c : CtrlSurf) : Harmless (fun s => { s with cs := c }) :=
  ⟨fun _ => rfl, fun _ => rfl, fun _ => rfl, fun _ => rfl, fun _ => rfl, fun _ _ h => { h with cs := rfl }⟩

theorem PlaneInv.modify {p : Plane} (h : PlaneInv p) {f : Seg → Seg} (hf : Harmless f) (id : ℕ) :
    PlaneInv { p with heap := p.heap.modify id (·.mapSegs f) } := by
  refine ⟨by simpa using h.ids, ?_⟩
  intro k w hw
  simp only [List.getElem?_modify] at hw
  cases hk : p.heap[k]? with
  | none => rw [hk] at hw; simp at hw
  | some w0 =>
    rw [hk] at hw
    simp only [Option.map_eq_map, Option.map_some, Option.some.injEq] at hw
    split at hw
    · subst hw; exact hf.inv (h.wing k w0 hk)
    · subst hw; exact h.wing k w0 hk

/-- parent target computed by `add_wing` -/
def targetOf (wings : List (String × ℕ)) (parent : Option String) : Except PyErr Parent :=
  match parent with
  | none => .ok .plane
  | some "" => .ok .plane
  | some q => match dictGet wings q with
    | some i => .ok (.wing i)
    | none => .error .key

theorem addWing_eq (p : Plane) (name : String) (parent : Option String) (location side : String) (d : WingDims) :
    p.addWing name parent location side d =
      match mkWing name side d with
      | .error e => (.error e, p)
      | .ok w => match targetOf (dictSet p.wings name p.heap.length) parent with
        | .error e => (.error e, { p with heap := p.heap ++ [w], wings := dictSet p.wings name p.heap.length })
        | .ok t => (.ok p.heap.length, { p with heap := p.heap ++ [w.mapSegs (·.connectTo t location)]
                                                wings := dictSet p.wings name p.heap.length }) := by
  unfold Plane.addWing targetOf
  cases mkWing name side d <;> rfl

theorem targetOf_le {wings : List (String × ℕ)} {parent : Option String} {t : Parent} {N : ℕ}
    (h : targetOf wings parent = .ok t) (hw : ∀ kv ∈ wings, kv.2 ≤ N) : ∀ j, t = .wing j → j ≤ N := by
  intro j hj
  subst hj
  unfold targetOf at h
  split at h
  · simp at h
  · simp at h
  · split at h
    · rename_i q _ i hi
      simp at h; subst h
      exact hw _ (dictGet_mem hi)
    · simp at h

/-- the wing object `add_wing` appends to the heap -/
theorem addWing_cases (p : Plane) (name : String) (parent : Option String) (location side : String) (d : WingDims) :
    ((∃ e, mkWing name side d = .error e) ∧ (p.addWing name parent location side d).2 = p) ∨
    ∃ w w', mkWing name side d = .ok w ∧
      (p.addWing name parent location side d).2 =
        { p with heap := p.heap ++ [w'], wings := dictSet p.wings name p.heap.length } ∧
      ((targetOf (dictSet p.wings name p.heap.length) parent = .error .key ∧ w' = w) ∨
       ∃ t, targetOf (dictSet p.wings name p.heap.length) parent = .ok t ∧
        w' = w.mapSegs (·.connectTo t location)) := by
  rw [addWing_eq]
  cases hw : mkWing name side d with
  | error e => left; exact ⟨⟨e, rfl⟩, rfl⟩
  | ok w =>
    right
    cases ht : targetOf (dictSet p.wings name p.heap.length) parent with
    | error e =>
      refine ⟨w, w, rfl, rfl, .inl ⟨?_, rfl⟩⟩
      unfold targetOf at ht
      split at ht
      · simp at ht
      · simp at ht
      · split at ht
        · simp at ht
        · simp at ht; rw [← ht]
    | ok t => exact ⟨w, _, rfl, rfl, .inr ⟨t, rfl, rfl⟩⟩

theorem PlaneInv.addWing {p : Plane} (h : PlaneInv p) (name : String) (parent : Option String)
    (location side : String) (d : WingDims) : PlaneInv (p.addWing name parent location side d).2 := by
  rcases addWing_cases p name parent location side d with ⟨_, h2⟩ | ⟨w, w', hw, h2, hcase⟩
  · rw [h2]; exact h
  rw [h2]
  have hids : ∀ kv ∈ dictSet p.wings name p.heap.length, kv.2 ≤ p.heap.length := by
    intro kv hkv
    rcases mem_dictSet hkv with hkv | rfl
    · exact (h.ids kv hkv).le
    · exact le_rfl
  refine ⟨?_, ?_⟩
  · intro kv hkv
    simp only [List.length_append, List.length_singleton]
    exact Nat.lt_succ_of_le (hids kv hkv)
  · intro id wi hwi
    simp only at hwi
    by_cases hlt : id < p.heap.length
    · rw [List.getElem?_append_left hlt] at hwi; exact h.wing id wi hwi
    · rw [List.getElem?_append_right (by omega)] at hwi
      have h0 : id - p.heap.length = 0 := by
        by_contra hne
        rw [List.getElem?_eq_none (by simp; omega)] at hwi
        simp at hwi
      rw [h0] at hwi
      simp at hwi
      subst hwi
      have hid : id = p.heap.length := by omega
      rcases hcase with ⟨_, rfl⟩ | ⟨t, ht, rfl⟩
      · exact mkWing_inv hw id
      · exact (mkWing_inv hw id).connectTo t location (hid ▸ targetOf_le ht hids)

theorem PlaneInv.run {p : Plane} (h : PlaneInv p) (op : PlaneOp) : PlaneInv (op.run p) := by
  cases op with
  | addWing name parent location side d => exact h.addWing name parent location side d
  | airfoil id name e props =>
    simp only [PlaneOp.run, Plane.wingAirfoil]
    split
    · exact h
    · exact h.modify (harmless_setAirfoil e _) id
  | controlSurface id props =>
    simp only [PlaneOp.run, Plane.wingCtrl]
    split
    · exact h
    · exact h.modify (harmless_cs _) id
  | addProp name d => exact ⟨h.ids, h.wing⟩
  | propAirfoil name af props =>
    simp only [PlaneOp.run, Plane.propAirfoil]
    split
    · exact h
    · split
      · exact h
      · exact ⟨h.ids, h.wing⟩
  | cgLocation x y z => exact ⟨h.ids, h.wing⟩
  | setRefLengths a b => exact ⟨h.ids, h.wing⟩

theorem PlaneInv.runOps {p : Plane} (h : PlaneInv p) (ops : List PlaneOp) : PlaneInv (runOps p ops) := by
  induction ops generalizing p with
  | nil => exact h
  | cons op t ih => exact ih (h.run op)

theorem built_inv (name : String) (pos : Option V3) (ops : List PlaneOp) : PlaneInv (built name pos ops) :=
  (newPlane_inv name pos).runOps ops

end Verif
