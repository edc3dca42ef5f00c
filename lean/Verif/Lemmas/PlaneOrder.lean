import Mathlib.Logic.Equiv.Basic
import Mathlib.Algebra.BigOperators.Group.List.Basic
import Verif.Spec.PlaneImage
import Verif.Lemmas.GeometryPos
import Verif.Lemmas.Grid

/-! Helper lemmas: exchanging two `add_wing` calls renames the wing objects and rearranges the grid. -/

namespace Verif
open V3

/-! ### dictionaries -/

theorem mem_keys_iff {α : Type*} (d : List (String × α)) (q : String) : q ∈ d.map (·.1) ↔ (dictGet d q).isSome = true := by
  induction d with
  | nil => simp [dictGet]
  | cons h t ih =>
    obtain ⟨k, v⟩ := h
    simp only [List.map_cons, List.mem_cons, dictGet]
    by_cases hk : k = q
    · simp [hk]
    · simp only [hk, if_false, ← ih]
      constructor
      · rintro (h | h)
        · exact absurd h.symm hk
        · exact h
      · exact .inr

theorem nodup_dictSet {α : Type*} (d : List (String × α)) (k : String) (v : α) (h : (d.map (·.1)).Nodup) :
    ((dictSet d k v).map (·.1)).Nodup := by
  induction d with
  | nil => simp [dictSet]
  | cons a t ih =>
    obtain ⟨k', v'⟩ := a
    simp only [List.map_cons, List.nodup_cons] at h
    by_cases hk : k' = k
    · simp [dictSet, hk]; rw [← hk]; simpa using h
    · simp only [dictSet, hk, if_false, List.map_cons, List.nodup_cons]
      refine ⟨?_, ih h.2⟩
      rw [mem_keys_iff, dictGet_dictSet, if_neg hk, ← mem_keys_iff]
      exact h.1

theorem mem_iff_dictGet {α : Type*} {d : List (String × α)} (h : (d.map (·.1)).Nodup) (k : String) (v : α) :
    (k, v) ∈ d ↔ dictGet d k = some v := by
  induction d with
  | nil => simp [dictGet]
  | cons a t ih =>
    obtain ⟨k', v'⟩ := a
    simp only [List.map_cons, List.nodup_cons] at h
    simp only [List.mem_cons, Prod.mk.injEq, dictGet]
    by_cases hk : k' = k
    · subst hk
      simp only [if_true, Option.some.injEq, true_and]
      constructor
      · rintro (h' | h')
        · exact h'.symm
        · exact absurd (List.mem_map_of_mem (f := (·.1)) h') h.1
      · intro h'; exact .inl h'.symm
    · simp only [hk, if_false, ← ih h.2]
      constructor
      · rintro (h' | h')
        · exact absurd h'.1.symm hk
        · exact h'
      · exact .inr

theorem dict_perm {α : Type*} {d d' : List (String × α)} (h : (d.map (·.1)).Nodup) (h' : (d'.map (·.1)).Nodup)
    (hg : ∀ k, dictGet d k = dictGet d' k) : d.Perm d' := by
  rw [List.perm_ext_iff_of_nodup h.of_map h'.of_map]
  rintro ⟨k, v⟩
  rw [mem_iff_dictGet h, mem_iff_dictGet h', hg]

theorem dictGet_map {α β : Type*} (f : α → β) (d : List (String × α)) (k : String) :
    dictGet (d.map fun kv => (kv.1, f kv.2)) k = (dictGet d k).map f := by
  induction d with
  | nil => rfl
  | cons a t ih =>
    simp only [List.map_cons, dictGet, ih]
    split_ifs <;> rfl

/-! ### renamed objects -/

def Parent.ren (π : ℕ → ℕ) : Parent → Parent
  | .none => .none
  | .plane => .plane
  | .wing id => .wing (π id)

def Seg.ren (π : ℕ → ℕ) (s : Seg) : Seg := { s with parent := s.parent.ren π }

/-- `p'` is `p` with wing objects renamed and wings listed in another order -/
structure PlaneRen (π : Equiv.Perm ℕ) (p p' : Plane) : Prop where
  len : p'.heap.length = p.heap.length
  fix : ∀ i, p.heap.length ≤ i → π i = i
  heap : ∀ i, p'.heap[π i]? = (p.heap[i]?).map (Wing.mapSegs (Seg.ren π))
  nodup : (p.wings.map (·.1)).Nodup
  nodup' : (p'.wings.map (·.1)).Nodup
  get : ∀ k, dictGet p'.wings k = (dictGet p.wings k).map π
  cg : p'.cg = p.cg
  position : p'.position = p.position

theorem mkWing_ren {name side : String} {d : WingDims} {w : Wing} (h : mkWing name side d = .ok w) (π : ℕ → ℕ) :
    w.mapSegs (Seg.ren π) = w := by
  unfold mkWing at h
  split_ifs at h <;> (have := (Except.ok.inj h).symm; subst this; rfl)

theorem mapSegs_mapSegs (f g : Seg → Seg) (w : Wing) : (w.mapSegs f).mapSegs g = w.mapSegs (g ∘ f) := by cases w <;> rfl

theorem connect_ren {name side : String} {d : WingDims} {w : Wing} (h : mkWing name side d = .ok w) (π : ℕ → ℕ)
    (t : Parent) (loc : String) :
    (w.mapSegs (·.connectTo t loc)).mapSegs (Seg.ren π) = w.mapSegs (·.connectTo (t.ren π) loc) := by
  rw [mapSegs_mapSegs]
  rfl

theorem targetOf_ren {ws ws' : List (String × ℕ)} (π : ℕ → ℕ) (parent : Option String)
    (h : ∀ k, parent = some k → dictGet ws' k = (dictGet ws k).map π) :
    targetOf ws' parent = (targetOf ws parent).map (Parent.ren π) := by
  unfold targetOf
  match parent, h with
  | none, _ => rfl
  | some q, h =>
    by_cases hq : q = ""
    · subst hq; rfl
    · simp only [hq]
      rw [h q rfl]
      cases dictGet ws q <;> rfl

theorem PlaneRen.run {π : Equiv.Perm ℕ} {p p' : Plane} (h : PlaneRen π p p') (op : PlaneOp) :
    PlaneRen π (op.run p) ((op.onObjects π).run p') := by
  have hlen := h.len
  have hπ : ∀ i, i < p.heap.length → π i < p.heap.length := by
    intro i hi
    by_contra hc
    have := h.fix (π i) (by omega)
    have := π.injective this
    omega
  cases op with
  | addWing name parent location side d =>
    simp only [PlaneOp.run, PlaneOp.onObjects, addWing_eq]
    cases hw : mkWing name side d with
    | error e => exact h
    | ok w =>
      simp only
      have hget : ∀ k, dictGet (dictSet p'.wings name p'.heap.length) k =
          (dictGet (dictSet p.wings name p.heap.length) k).map π := by
        intro k
        rw [dictGet_dictSet, dictGet_dictSet, hlen]
        split_ifs
        · simp [h.fix]
        · exact h.get k
      have hheap : ∀ W W' : Wing, W' = W.mapSegs (Seg.ren π) → ∀ i,
          (p'.heap ++ [W'])[π i]? = ((p.heap ++ [W])[i]?).map (Wing.mapSegs (Seg.ren π)) := by
        intro W W' hW i
        rcases lt_trichotomy i p.heap.length with hi | hi | hi
        · rw [List.getElem?_append_left (by rw [hlen]; exact hπ i hi), List.getElem?_append_left hi, h.heap]
        · subst hi
          rw [h.fix _ le_rfl, List.getElem?_append_right (by omega), List.getElem?_append_right (by omega), hlen]
          simp [hW]
        · rw [h.fix _ hi.le, List.getElem?_eq_none (by simp; omega), List.getElem?_eq_none (by simp; omega)]
          rfl
      have ht := targetOf_ren (ws := dictSet p.wings name p.heap.length)
        (ws' := dictSet p'.wings name p'.heap.length) π parent (fun k _ => hget k)
      rw [ht]
      cases targetOf (dictSet p.wings name p.heap.length) parent with
      | error e =>
        exact { h with
          len := by simp [hlen, Except.map]
          fix := fun i hi => h.fix i (by simp at hi; omega)
          heap := hheap _ _ (mkWing_ren hw π).symm
          nodup := nodup_dictSet _ _ _ h.nodup
          nodup' := nodup_dictSet _ _ _ h.nodup'
          get := hget }
      | ok t =>
        exact { h with
          len := by simp [hlen, Except.map]
          fix := fun i hi => h.fix i (by simp at hi; omega)
          heap := hheap _ _ (connect_ren hw π t location).symm
          nodup := nodup_dictSet _ _ _ h.nodup
          nodup' := nodup_dictSet _ _ _ h.nodup'
          get := hget }
  | airfoil id name e props =>
    simp only [PlaneOp.run, PlaneOp.onObjects, Plane.wingAirfoil]
    cases mkAirfoil name props with
    | error er => exact h
    | ok a =>
      refine { h with len := by simp [hlen], fix := fun i hi => h.fix i (by simpa using hi), heap := fun i => ?_ }
      simp only [List.getElem?_modify, h.heap]
      cases p.heap[i]? with
      | none => simp
      | some w =>
        by_cases hi : id = i
        · subst hi
          simp only [if_true, Option.map_some, Option.map_eq_map, mapSegs_mapSegs]
          congr 1
          congr 1
          funext s
          simp only [Function.comp, Seg.setAirfoil, Seg.ren]
          split_ifs <;> rfl
        · have : π id ≠ π i := fun hc => hi (π.injective hc)
          simp [hi]
  | controlSurface id props =>
    simp only [PlaneOp.run, PlaneOp.onObjects, Plane.wingCtrl]
    cases mkCtrlSurf props with
    | error er => exact h
    | ok a =>
      refine { h with len := by simp [hlen], fix := fun i hi => h.fix i (by simpa using hi), heap := fun i => ?_ }
      simp only [List.getElem?_modify, h.heap]
      cases p.heap[i]? with
      | none => simp
      | some w =>
        by_cases hi : id = i
        · subst hi
          simp only [if_true, Option.map_some, Option.map_eq_map, mapSegs_mapSegs]
          rfl
        · have : π id ≠ π i := fun hc => hi (π.injective hc)
          simp [hi]
  | addProp name d => exact { h with }
  | propAirfoil name af props =>
    simp only [PlaneOp.run, PlaneOp.onObjects, Plane.propAirfoil]
    cases mkAirfoil af props with
    | error er => exact h
    | ok a =>
      simp only
      cases dictGet p.props name <;> cases dictGet p'.props name <;> exact { h with }
  | cgLocation x y z =>
    exact { h with cg := by simp only [PlaneOp.run, PlaneOp.onObjects, Plane.cgLocation, h.cg] }
  | setRefLengths a b => exact { h with }

theorem PlaneRen.runOps {π : Equiv.Perm ℕ} (ops : List PlaneOp) : ∀ {p p' : Plane}, PlaneRen π p p' →
    PlaneRen π (runOps p ops) (runOps p' (ops.map (PlaneOp.onObjects π))) := by
  induction ops with
  | nil => intro p p' h; exact h
  | cons op t ih =>
    intro p p' h
    exact ih (h.run op)

theorem nodup_built (nm : String) (pos : Option V3) (ops : List PlaneOp) :
    ((built nm pos ops).wings.map (·.1)).Nodup := by
  unfold built
  have : ∀ p : Plane, (p.wings.map (·.1)).Nodup → ((Verif.runOps p ops).wings.map (·.1)).Nodup := by
    induction ops with
    | nil => intro p h; exact h
    | cons op t ih =>
      intro p h
      refine ih (op.run p) ?_
      cases op with
      | addWing name parent location side d =>
        simp only [PlaneOp.run, addWing_eq]
        cases mkWing name side d with
        | error e => exact h
        | ok w =>
          simp only
          cases targetOf (dictSet p.wings name p.heap.length) parent <;> exact nodup_dictSet _ _ _ h
      | airfoil id name e props =>
        simp only [PlaneOp.run, Plane.wingAirfoil]
        cases mkAirfoil name props <;> exact h
      | controlSurface id props =>
        simp only [PlaneOp.run, Plane.wingCtrl]
        cases mkCtrlSurf props <;> exact h
      | addProp name d => exact h
      | propAirfoil name af props =>
        simp only [PlaneOp.run, Plane.propAirfoil]
        cases mkAirfoil af props with
        | error er => exact h
        | ok a => simp only; cases dictGet p.props name <;> exact h
      | cgLocation x y z => exact h
      | setRefLengths a b => exact h
  exact this _ (by simp [newPlane])

/-- one `add_wing` call whose side is valid -/
theorem addWing_run (p : Plane) (name : String) (parent : Option String) (location side : String) (d : WingDims)
    {w : Wing} (hw : mkWing name side d = .ok w) :
    ∃ W, (PlaneOp.addWing name parent location side d).run p =
        { p with heap := p.heap ++ [W], wings := dictSet p.wings name p.heap.length } ∧
      W = match targetOf (dictSet p.wings name p.heap.length) parent with
        | .error _ => w
        | .ok t => w.mapSegs (·.connectTo t location) := by
  simp only [PlaneOp.run, addWing_eq, hw]
  cases targetOf (dictSet p.wings name p.heap.length) parent with
  | error e => exact ⟨_, rfl, rfl⟩
  | ok t => exact ⟨_, rfl, rfl⟩

theorem swap_ren {p : Plane} (hp : PlaneInv p) (hn : (p.wings.map (·.1)).Nodup)
    {n₁ n₂ : String} {q₁ q₂ : Option String} {l₁ l₂ s₁ s₂ : String} {d₁ d₂ : WingDims} {w₁ w₂ : Wing}
    (h₁ : mkWing n₁ s₁ d₁ = .ok w₁) (h₂ : mkWing n₂ s₂ d₂ = .ok w₂) (hne : n₁ ≠ n₂) (hq₁ : q₁ ≠ some n₂)
    (hq₂ : q₂ ≠ some n₁) :
    PlaneRen (Equiv.swap p.heap.length (p.heap.length + 1))
      (runOps p [.addWing n₁ q₁ l₁ s₁ d₁, .addWing n₂ q₂ l₂ s₂ d₂])
      (runOps p [.addWing n₂ q₂ l₂ s₂ d₂, .addWing n₁ q₁ l₁ s₁ d₁]) := by
  set N := p.heap.length with hN
  set π := Equiv.swap N (N + 1) with hπ
  have πN : π N = N + 1 := Equiv.swap_apply_left _ _
  have πN1 : π (N + 1) = N := Equiv.swap_apply_right _ _
  have πlt : ∀ i, i < N → π i = i := fun i hi => Equiv.swap_apply_of_ne_of_ne (by omega) (by omega)
  have πgt : ∀ i, N + 2 ≤ i → π i = i := fun i hi => Equiv.swap_apply_of_ne_of_ne (by omega) (by omega)
  have hold : ∀ k, (dictGet p.wings k).map π = dictGet p.wings k := by
    intro k
    cases hk : dictGet p.wings k with
    | none => rfl
    | some i => simp only [Option.map_some, Option.some.injEq]; exact πlt i (hp.ids _ (dictGet_mem hk))
  have hheap : ∀ (i : ℕ) (w : Wing), p.heap[i]? = some w → w.mapSegs (Seg.ren π) = w := by
    intro i w hw
    have hi : i < N := (List.getElem?_eq_some_iff.1 hw).1
    have hpar := (hp.wing i w hw).parent_le
    have hs : ∀ s ∈ w.segments, Seg.ren π s = s := by
      intro s hs
      have : s.parent.ren π = s.parent := by
        cases hps : s.parent with
        | none => rfl
        | plane => rfl
        | wing j => simp only [Parent.ren]; rw [πlt j (by have := hpar s hs j hps; omega)]
      simp only [Seg.ren, this]
    cases w with
    | both l r =>
      simp only [Wing.mapSegs, hs l (by simp [Wing.segments]), hs r (by simp [Wing.segments])]
    | onlyLeft l => simp only [Wing.mapSegs, hs l (by simp [Wing.segments])]
    | onlyRight r => simp only [Wing.mapSegs, hs r (by simp [Wing.segments])]
  simp only [runOps, List.foldl_cons, List.foldl_nil]
  obtain ⟨W₁, e₁, hW₁⟩ := addWing_run p n₁ q₁ l₁ s₁ d₁ h₁
  obtain ⟨W₂', e₂', hW₂'⟩ := addWing_run p n₂ q₂ l₂ s₂ d₂ h₂
  rw [e₁, e₂']
  obtain ⟨W₂, e₂, hW₂⟩ := addWing_run { p with heap := p.heap ++ [W₁], wings := dictSet p.wings n₁ p.heap.length }
    n₂ q₂ l₂ s₂ d₂ h₂
  obtain ⟨W₁', e₁', hW₁'⟩ := addWing_run { p with heap := p.heap ++ [W₂'], wings := dictSet p.wings n₂ p.heap.length }
    n₁ q₁ l₁ s₁ d₁ h₁
  rw [e₂, e₁']
  simp only [List.length_append, List.length_cons, List.length_nil, ← hN, zero_add] at hW₁ hW₂ hW₁' hW₂' ⊢
  have r₁ : W₁' = W₁.mapSegs (Seg.ren π) := by
    rw [hW₁', hW₁, targetOf_ren (ws := dictSet p.wings n₁ N) π q₁ (fun k hk => by
      subst hk
      have hk2 : k ≠ n₂ := fun hc => hq₁ (by rw [hc])
      simp only [dictGet_dictSet, if_neg hk2]
      split_ifs
      · simp [πN]
      · exact (hold k).symm)]
    cases targetOf (dictSet p.wings n₁ N) q₁ with
    | error e => exact (mkWing_ren h₁ π).symm
    | ok t => exact (connect_ren h₁ π t l₁).symm
  have r₂ : W₂' = W₂.mapSegs (Seg.ren π) := by
    rw [hW₂', hW₂, targetOf_ren (ws := dictSet (dictSet p.wings n₁ N) n₂ (N + 1)) π q₂ (fun k hk => by
      subst hk
      have hk2 : k ≠ n₁ := fun hc => hq₂ (by rw [hc])
      simp only [dictGet_dictSet, if_neg hk2]
      split_ifs
      · simp [πN1]
      · exact (hold k).symm)]
    cases targetOf (dictSet (dictSet p.wings n₁ N) n₂ (N + 1)) q₂ with
    | error e => exact (mkWing_ren h₂ π).symm
    | ok t => exact (connect_ren h₂ π t l₂).symm
  constructor
  · simp
  · intro i hi
    simp only [List.length_append, List.length_cons, List.length_nil, ← hN] at hi
    exact πgt i (by omega)
  · intro i
    simp only [List.append_assoc, List.cons_append, List.nil_append]
    rcases lt_trichotomy i N with hi | hi | hi
    · rw [πlt i hi, List.getElem?_append_left hi, List.getElem?_append_left hi]
      cases hw : p.heap[i]? with
      | none => rfl
      | some w => simp only [Option.map_some, hheap i w hw]
    · subst hi
      rw [πN, List.getElem?_append_right (by omega), List.getElem?_append_right (by omega)]
      simp [← hN, r₁]
    · rcases eq_or_lt_of_le (show N + 1 ≤ i from hi) with rfl | hi
      · rw [πN1, List.getElem?_append_right (by omega), List.getElem?_append_right (by omega)]
        simp [← hN, r₂]
      · rw [πgt i hi, List.getElem?_eq_none (by simp; omega), List.getElem?_eq_none (by simp; omega)]
        rfl
  · exact nodup_dictSet _ _ _ (nodup_dictSet _ _ _ hn)
  · exact nodup_dictSet _ _ _ (nodup_dictSet _ _ _ hn)
  · intro k
    simp only [dictGet_dictSet]
    by_cases hk1 : k = n₁
    · subst hk1; simp [hne, πN]
    · by_cases hk2 : k = n₂
      · subst hk2; simp [hk1, πN1]
      · simp only [hk1, hk2, if_false]; exact (hold k).symm
  · rfl
  · rfl

/-! ### positions and grid -/

theorem segPos_ren {π : Equiv.Perm ℕ} {p p' : Plane} (h : PlaneRen π p p') : ∀ (f : ℕ) (s : Seg) (t : TipAt),
    segPos p' f (s.ren π) t = segPos p f s t := by
  intro f
  induction f with
  | zero => intro s t; rfl
  | succ f ih =>
    intro s t
    have hb : basePos p' (s.ren π) = basePos p s := by
      unfold basePos
      simp only [Seg.ren]
      cases s.parent with
      | none => rfl
      | plane => simp only [Parent.ren, Plane.getPosition, h.position]
      | wing id => rfl
    have hc : connTarget p' (s.ren π) = (connTarget p s).map (·.map fun q => (q.1.ren π, q.2)) := by
      unfold connTarget
      simp only [Seg.ren]
      cases s.parent with
      | none => rfl
      | plane => rfl
      | wing id =>
        simp only [Parent.ren, h.heap]
        cases p.heap[id]? with
        | none => rfl
        | some w =>
          simp only [Option.map_some]
          cases TipAt.ofStr s.connectAt with
          | error e => rfl
          | ok t => cases t <;> cases w <;> rfl
    rw [segPos_succ, segPos_succ, hc, hb]
    cases connTarget p s with
    | error e => rfl
    | ok o =>
      cases o with
      | none => rfl
      | some q =>
        simp only [Except.map, Option.map_some, ih]
        rfl

theorem segData_ren {π : Equiv.Perm ℕ} {p p' : Plane} (h : PlaneRen π p p') (c : Bool) (s : Seg) :
    segData p' c (s.ren π) = segData p c s := by
  have hp : ∀ t, p'.segPosition (s.ren π) t = p.segPosition s t := by
    intro t
    unfold Plane.segPosition
    rw [h.len]
    exact segPos_ren h _ s t
  unfold segData
  rw [hp, hp]
  rfl

theorem segments_ren {π : Equiv.Perm ℕ} {p p' : Plane} (h : PlaneRen π p p') :
    p'.segments.Perm (p.segments.map (Seg.ren π)) := by
  have hw : p'.wings.Perm (p.wings.map fun kv => (kv.1, π kv.2)) :=
    dict_perm h.nodup' (by rw [List.map_map]; exact h.nodup) (fun k => by rw [h.get, dictGet_map])
  rw [segments_eq, segments_eq]
  unfold Plane.wingList
  refine ((hw.filterMap _).flatMap_right _).trans (List.Perm.of_eq ?_)
  rw [List.filterMap_map]
  have hf : ((fun kv : String × ℕ => p'.heap[kv.2]?) ∘ fun kv : String × ℕ => (kv.1, π kv.2)) =
      fun kv => (p.heap[kv.2]?).map (Wing.mapSegs (Seg.ren π)) := by
    funext kv; exact h.heap kv.2
  rw [hf]
  generalize p.wings = ws
  induction ws with
  | nil => rfl
  | cons kv t ih =>
    cases hk : p.heap[kv.2]? with
    | none => simp [hk, ih]
    | some w =>
      simp only [List.filterMap_cons, hk, Option.map_some, List.flatMap_cons, List.map_append, ih]
      congr 1
      cases w <;> rfl

/-- the sections of a segment -/
noncomputable def segSecs (p : Plane) (c : Bool) (s : Seg) : List GridSec :=
  match segData p c s with
  | .ok v => v
  | .error _ => []

theorem mkGrid_segSecs {p : Plane} {c : Bool} {g : Grid} (h : mkGrid p c = .ok g) :
    g.data = (p.segments.flatMap (segSecs p c)).map GridSec.withIc2 ∧
      g.refArea = (p.segments.map fun s => if s.isMain then ((segSecs p c s).map (·.area)).sum else 0).sum := by
  obtain ⟨vs, hvs, d1, _, d3⟩ := mkGrid_ok h
  rw [d1, d3]
  clear d1 d3 h
  generalize p.segments = segs at hvs
  have : vs.flatten = segs.flatMap (segSecs p c) ∧
      refOf segs vs = (segs.map fun s => if s.isMain then ((segSecs p c s).map (·.area)).sum else 0).sum := by
    induction hvs with
    | nil => exact ⟨rfl, rfl⟩
    | @cons s v segs vs hv _ ih =>
      have hs : segSecs p c s = v := by unfold segSecs; rw [hv]
      refine ⟨by simp [hs, ih.1], by simp [refOf, hs, ih.2]⟩
  rw [this.1, this.2]
  exact ⟨rfl, rfl⟩

theorem mkGrid_iff {p : Plane} {c : Bool} : (∃ g, mkGrid p c = .ok g) ↔ ∀ s ∈ p.segments, ∃ v, segData p c s = .ok v := by
  refine ⟨?_, mkGrid_of⟩
  rintro ⟨g, hg⟩
  obtain ⟨vs, hvs, hrest⟩ := mkGrid_ok hg
  clear hrest
  intro s hs
  generalize p.segments = segs at hvs hs
  induction hvs with
  | nil => cases hs
  | cons hv _ ih =>
    rcases List.mem_cons.1 hs with rfl | hs
    · exact ⟨_, hv⟩
    · exact ih hs

theorem PlaneRen.exists_iff {π : Equiv.Perm ℕ} {p p' : Plane} (h : PlaneRen π p p') (c : Bool) :
    (∃ g, mkGrid p c = .ok g) ↔ ∃ g', mkGrid p' c = .ok g' := by
  rw [mkGrid_iff, mkGrid_iff]
  have := segments_ren h
  constructor
  · intro hh s hs
    obtain ⟨s0, hs0, rfl⟩ := List.mem_map.1 (this.mem_iff.1 hs)
    rw [segData_ren h]
    exact hh s0 hs0
  · intro hh s hs
    have := hh (s.ren π) (this.mem_iff.2 (List.mem_map_of_mem hs))
    rwa [segData_ren h] at this

theorem PlaneRen.grids {π : Equiv.Perm ℕ} {p p' : Plane} (h : PlaneRen π p p') {c : Bool} {g g' : Grid}
    (hg : mkGrid p c = .ok g) (hg' : mkGrid p' c = .ok g') : g.data.Perm g'.data ∧ g'.refArea = g.refArea := by
  obtain ⟨a1, a2⟩ := mkGrid_segSecs hg
  obtain ⟨b1, b2⟩ := mkGrid_segSecs hg'
  have hs : ∀ s, segSecs p' c (s.ren π) = segSecs p c s := by
    intro s; unfold segSecs; rw [segData_ren h]
  have hp := segments_ren h
  rw [a1, a2, b1, b2]
  constructor
  · refine (List.Perm.map _ ?_).symm
    refine (hp.flatMap_right _).trans (List.Perm.of_eq ?_)
    rw [List.flatMap_map]
    simp only [hs]
  · rw [(hp.map _).sum_eq, List.map_map]
    congr 1
    apply List.map_congr_left
    intro s _
    simp only [Function.comp, hs]
    rfl

end Verif
