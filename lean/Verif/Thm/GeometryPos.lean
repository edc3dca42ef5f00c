import Verif.Lemmas.GeometryPos

/-!
# C02, C03, C04: positions of attached wings
-/

namespace Verif
open V3

/-! ### C03 -/

theorem parentOf_unique {p : Plane} (hp : PlaneInv p) {b c c' : ℕ} (h : ParentOf p b c) (h' : ParentOf p b c') :
    c = c' := by
  obtain ⟨w, s, hw, hs, hps⟩ := h
  obtain ⟨w', s', hw', hs', hps'⟩ := h'
  have : w' = w := by rw [hw] at hw'; simpa using hw'.symm
  subst this
  cases w' with
  | both l r =>
    have ht := (hp.wing b _ hw).twin _ _ rfl
    have hall : ∀ q ∈ (Wing.both l r).segments, q.parent = r.parent := by
      intro q hq; simp [Wing.segments] at hq; rcases hq with rfl | rfl
      · exact ht.parent
      · rfl
    rw [hall s hs] at hps; rw [hall s' hs'] at hps'
    rw [hps] at hps'; simpa using hps'
  | onlyLeft l => simp [Wing.segments] at hs hs'; subst hs; subst hs'; rw [hps] at hps'; simpa using hps'
  | onlyRight r => simp [Wing.segments] at hs hs'; subst hs; subst hs'; rw [hps] at hps'; simpa using hps'

theorem parentOf_le {p : Plane} (hp : PlaneInv p) {b c : ℕ} (h : ParentOf p b c) : c ≤ b := by
  obtain ⟨w, s, hw, hs, hps⟩ := h
  exact (hp.wing b w hw).parent_le s hs c hps

theorem attached_le {p : Plane} (hp : PlaneInv p) {b a : ℕ} (h : Attached p b a) : a ≤ b := by
  induction h with
  | refl => exact le_rfl
  | tail _ h2 ih => exact (parentOf_le hp h2).trans ih

private theorem self_recursion {p : Plane} (hp : PlaneInv p) {b : ℕ} {w : Wing} (hb : p.heap[b]? = some w) {s : Seg}
    (hs : s ∈ w.segments) (hpar : s.parent = .wing b) {qt : Seg × TipAt} (h : connTarget p s = .ok (some qt)) :
    ∀ f t, segPos p f s t = .error .recursion := by
  obtain ⟨q, t'⟩ := qt
  have := connTarget_self hp hb hs hpar h
  subst this
  intro f
  induction f with
  | zero => intro t; rfl
  | succ f ih => intro t; rw [segPos_succ, h]; simp only [ih]

private theorem addOff_ne (o : Option V3) (v : V3) : addOff o v ≠ .error .recursion := by
  cases o <;> simp [addOff]

private theorem connTarget_ne {p : Plane} {s : Seg} {e : PyErr} (h : connTarget p s = .error e) : e ≠ .recursion := by
  unfold connTarget at h
  split at h
  · simp at h
  · simp at h
  split at h
  · simp at h; rw [← h]; simp
  split at h
  · rename_i e' he
    simp at h; subst h
    unfold TipAt.ofStr at he
    split at he
    · simp at he
    split at he
    · simp at he
    · simp at he; rw [← he]; simp
  · split at h
    · simp at h
    · simp at h; rw [← h]; simp
  · split at h
    · simp at h
    · simp at h; rw [← h]; simp

private theorem position_ne {p : Plane} (hp : PlaneInv p) : ∀ (b : ℕ) {w : Wing}, p.heap[b]? = some w → ∀ {s : Seg},
    s ∈ w.segments → ∀ (t : TipAt), p.segPosition s t ≠ .error .recursion ∨ ∃ c, Attached p b c ∧ ParentOf p c c := by
  intro b
  induction b using Nat.strong_induction_on with
  | _ b ih =>
    intro w hb s hs t
    by_cases hself : ParentOf p b b
    · exact .inr ⟨b, .refl, hself⟩
    rw [segPosition_succ hp hb hs]
    cases hc : connTarget p s with
    | error e =>
      left
      simpa using connTarget_ne hc
    | ok o =>
      cases o with
      | none => left; exact addOff_ne _ _
      | some qt =>
        obtain ⟨q, t'⟩ := qt
        obtain ⟨id, w', hpar, hw', hq, _, _, _⟩ := connTarget_mem hc
        have hpo : ParentOf p b id := ⟨w, s, hb, hs, hpar⟩
        have hlt : id < b := by
          rcases Nat.lt_or_ge id b with h | h
          · exact h
          · have := parentOf_le hp hpo
            have : id = b := by omega
            subst this
            exact absurd hpo hself
        rcases ih id hlt hw' hq t' with h | ⟨c, h1, h2⟩
        · left
          simp only
          cases hv : p.segPosition q t' with
          | error e => rw [hv] at h; simpa using h
          | ok v => exact addOff_ne _ _
        · exact .inr ⟨c, .head hpo h1, h2⟩

/-- A tip position query finishes with a position or an error, unless the wing is (or is
attached to) a wing that was connected to itself. -/
theorem finishes_or_self (name : String) (pos : Option V3) (ops : List PlaneOp) (b : ℕ) (w : Wing)
    (hb : (built name pos ops).heap[b]? = some w) (s : Seg) (hs : s ∈ w.segments) (t : TipAt) :
    (∃ r, Finishes (built name pos ops) s t r) ∨
      ∃ c, Attached (built name pos ops) b c ∧ ParentOf (built name pos ops) c c := by
  have hp := built_inv name pos ops
  rcases position_ne hp b hb hs t with h | h
  · left
    exact ⟨_, _, fun f hf => ⟨segPos_position hp hb hs t hf, h⟩⟩
  · exact .inr h

private theorem strict_run {p : Plane} (hp : PlaneInv p) (h : ∀ c, ¬ ParentOf p c c) (op : PlaneOp)
    (hop : ∀ name parent location side d, op = .addWing name parent location side d → parent ≠ some name) :
    ∀ c, ¬ ParentOf (op.run p) c c := by
  have hmod : ∀ {f : Seg → Seg} (_ : Harmless f) (id : ℕ) (c : ℕ),
      ¬ ParentOf { p with heap := p.heap.modify id (·.mapSegs f) } c c := by
    intro f hf id c hpo
    obtain ⟨w, s, hw, hs, hpar⟩ := hpo
    simp only [List.getElem?_modify] at hw
    cases hk : p.heap[c]? with
    | none => rw [hk] at hw; simp at hw
    | some w0 =>
      rw [hk] at hw
      simp only [Option.map_eq_map, Option.map_some, Option.some.injEq] at hw
      split at hw
      · subst hw
        obtain ⟨s0, hs0, rfl⟩ := mem_segments_mapSegs hs
        rw [hf.parent] at hpar
        exact h c ⟨w0, s0, hk, hs0, hpar⟩
      · subst hw; exact h c ⟨w0, s, hk, hs, hpar⟩
  cases op with
  | addWing name parent location side d =>
    intro c hpo
    simp only [PlaneOp.run] at hpo
    rcases addWing_cases p name parent location side d with ⟨_, h2⟩ | ⟨w, w', hw, h2, hcase⟩
    · rw [h2] at hpo; exact h c hpo
    rw [h2] at hpo
    obtain ⟨wc, s, hwc, hs, hpar⟩ := hpo
    simp only at hwc
    by_cases hlt : c < p.heap.length
    · rw [List.getElem?_append_left hlt] at hwc
      exact h c ⟨wc, s, hwc, hs, hpar⟩
    · rw [List.getElem?_append_right (by omega)] at hwc
      have h0 : c - p.heap.length = 0 := by
        by_contra hne
        rw [List.getElem?_eq_none (by simp; omega)] at hwc
        simp at hwc
      have hc : c = p.heap.length := by omega
      rw [h0] at hwc
      simp at hwc
      subst hwc
      rcases hcase with ⟨_, rfl⟩ | ⟨t, ht, rfl⟩
      · have hp0 : ∀ s ∈ w'.segments, s.parent = .none := by
          intro s hs
          unfold mkWing at hw
          split at hw
          · have := (Except.ok.inj hw).symm; subst this
            simp [Wing.segments] at hs; rcases hs with rfl | rfl <;> rfl
          split at hw
          · have := (Except.ok.inj hw).symm; subst this
            simp [Wing.segments] at hs; subst hs; rfl
          split at hw
          · have := (Except.ok.inj hw).symm; subst this
            simp [Wing.segments] at hs; subst hs; rfl
          · simp at hw
        rw [hp0 s hs] at hpar; simp at hpar
      · obtain ⟨s0, hs0, rfl⟩ := mem_segments_mapSegs hs
        simp only [Seg.connectTo] at hpar
        subst hpar
        have hne := hop name parent location side d rfl
        unfold targetOf at ht
        split at ht
        · simp at ht
        · simp at ht
        · rename_i q _
          rw [dictGet_dictSet] at ht
          have hq : q ≠ name := by rintro rfl; exact hne rfl
          rw [if_neg hq] at ht
          split at ht
          · rename_i i hi
            simp at ht; subst ht
            have := hp.ids _ (dictGet_mem hi)
            simp only at this
            omega
          · simp at ht
  | airfoil id name e props =>
    simp only [PlaneOp.run, Plane.wingAirfoil]
    split
    · exact h
    · exact hmod (harmless_setAirfoil e _) id
  | controlSurface id props =>
    simp only [PlaneOp.run, Plane.wingCtrl]
    split
    · exact h
    · exact hmod (harmless_cs _) id
  | addProp name d => exact h
  | propAirfoil name af props =>
    simp only [PlaneOp.run, Plane.propAirfoil]
    split
    · exact h
    · split <;> exact h
  | cgLocation x y z => exact h
  | setRefLengths a b => exact h

private theorem strict_runOps {p : Plane} (hp : PlaneInv p) (h : ∀ c, ¬ ParentOf p c c) (ops : List PlaneOp)
    (hops : NoSelfConnection ops) : ∀ c, ¬ ParentOf (runOps p ops) c c := by
  induction ops generalizing p with
  | nil => exact h
  | cons op t ih =>
    exact ih (hp.run op) (strict_run hp h op (fun n pa l sd d ho => hops op (by simp) n pa l sd d ho))
      (fun op' hop' => hops op' (by simp [hop']))

/-- **C03 (partial).** If no `add_wing` call connects a wing to its own name, every tip position query on every
segment of the plane finishes with a position or an error.  Missing: histories with a self-connection, for which the
property is false (`C03_refuted`). -/
theorem C03_finishes_partial (name : String) (pos : Option V3) (ops : List PlaneOp) (hops : NoSelfConnection ops)
    (s : Seg) (hs : s ∈ (built name pos ops).segments) (t : TipAt) : ∃ r, Finishes (built name pos ops) s t r := by
  obtain ⟨b, w, hb, hsw⟩ := mem_plane_segments hs
  rcases finishes_or_self name pos ops b w hb s hsw t with h | ⟨c, _, h⟩
  · exact h
  · exact absurd h (strict_runOps (newPlane_inv name pos) (by intro c ⟨w, s, hw, _⟩; simp [newPlane] at hw) ops hops c)

/-- a chain of three wings and a wing attached to a name that does not exist -/
example : NoSelfConnection [.addWing "A" none "tip" "both" {}, .addWing "B" (some "A") "tip" "both" {},
    .addWing "C" (some "B") "tip" "left" {}, .addWing "D" (some "X") "tip" "left" {}] := by
  intro op hop name parent location side d h
  simp at hop
  rcases hop with rfl | rfl | rfl | rfl <;> cases h <;> simp

/-- **C03 fails for a self-connected wing**: `add_wing("A", connect_to=("A","tip"))` is accepted, and asking for the
wing's tip recurses without end. -/
theorem C03_refuted (name : String) (pos : Option V3) (d : WingDims) :
    let p := built name pos [.addWing "A" (some "A") "tip" "both" d]
    ∃ s ∈ p.segments, ∀ depth t, segPos p depth s t = .error .recursion := by
  intro p
  have hp : PlaneInv p := built_inv name pos _
  have hheap : p.heap[0]? = some (.both ((mkSeg "left_A" .left d).connectTo (.wing 0) "tip")
      ((mkSeg "right_A" .right d).connectTo (.wing 0) "tip")) := rfl
  refine ⟨(mkSeg "left_A" .left d).connectTo (.wing 0) "tip", ?_, ?_⟩
  · simp [p, built, runOps, PlaneOp.run, newPlane, addWing_eq, mkWing, targetOf, dictSet, dictGet, segments_eq,
      Plane.wingList, Wing.mapSegs, Wing.segments]
  · exact self_recursion hp hheap (by simp [Wing.segments]) rfl (qt := (_, .leftTip)) rfl

/-! ### C02 -/

/-- segment with its position offset displaced -/
def Seg.shift (δ : V3) (s : Seg) : Seg := { s with dpos := s.dpos + δ }

theorem harmless_shift (δ : V3) : Harmless (Seg.shift δ) :=
  ⟨fun _ => rfl, fun _ => rfl, fun _ => rfl, fun _ => rfl, fun _ => rfl,
    fun l r h => { h with dpos := by simp [Seg.shift, h.dpos] }⟩

/-- plane with the position offset of wing object `a` displaced -/
def Plane.shift (a : ℕ) (δ : V3) (p : Plane) : Plane := { p with heap := p.heap.modify a (·.mapSegs (Seg.shift δ)) }

/-- the update of a segment of wing object `b` -/
def shiftAt (a b : ℕ) (δ : V3) (s : Seg) : Seg := if b = a then s.shift δ else s

theorem shift_heap (p : Plane) (a b : ℕ) (δ : V3) :
    (p.shift a δ).heap[b]? = (p.heap[b]?).map (·.mapSegs (shiftAt a b δ)) := by
  simp only [Plane.shift, List.getElem?_modify, Option.map_eq_map]
  cases p.heap[b]? with
  | none => rfl
  | some w =>
    simp only [Option.map_some, Option.some.injEq]
    by_cases h : a = b
    · subst h; simp only [if_true]; congr 1; funext s; simp [shiftAt]
    · rw [if_neg h]
      have : shiftAt a b δ = id := by funext s; simp [shiftAt, Ne.symm h]
      rw [this]; cases w <;> rfl

theorem leftSeg_map (w : Wing) (f : Seg → Seg) : (w.mapSegs f).leftSeg = w.leftSeg.map f := by cases w <;> rfl
theorem rightSeg_map (w : Wing) (f : Seg → Seg) : (w.mapSegs f).rightSeg = w.rightSeg.map f := by cases w <;> rfl
theorem segments_map (w : Wing) (f : Seg → Seg) : (w.mapSegs f).segments = w.segments.map f := by cases w <;> rfl

theorem shiftAt_parent (a b : ℕ) (δ : V3) (s : Seg) : (shiftAt a b δ s).parent = s.parent := by
  unfold shiftAt; split <;> rfl
theorem shiftAt_connectAt (a b : ℕ) (δ : V3) (s : Seg) : (shiftAt a b δ s).connectAt = s.connectAt := by
  unfold shiftAt; split <;> rfl

theorem shift_connTarget (p : Plane) (a b : ℕ) (δ : V3) (s : Seg) :
    connTarget (p.shift a δ) (shiftAt a b δ s) =
      match s.parent, connTarget p s with
      | .wing id, .ok (some (q, t)) => .ok (some (shiftAt a id δ q, t))
      | _, r => r := by
  unfold connTarget
  rw [shiftAt_parent, shiftAt_connectAt]
  cases s.parent with
  | none => rfl
  | plane => rfl
  | wing id =>
    simp only [shift_heap]
    cases p.heap[id]? with
    | none => rfl
    | some w =>
      simp only [Option.map_some, leftSeg_map, rightSeg_map]
      cases TipAt.ofStr s.connectAt with
      | error e => rfl
      | ok t =>
        cases t with
        | leftTip => simp only; cases w.leftSeg <;> rfl
        | rightTip => simp only; cases w.rightSeg <;> rfl

theorem tipOffset_shift (δ : V3) (s : Seg) (t : TipAt) : (s.shift δ).tipOffset t = (s.tipOffset t).map (· + δ) := by
  unfold Seg.tipOffset
  cases t <;> cases h : s.side <;> simp only [Seg.shift, h]
  · split
    · rfl
    · simp only [Option.map_some, Option.some.injEq]; ext <;> simp <;> ring
  · simp only [Option.map_some, Option.some.injEq]; ext <;> simp; ring
  · simp only [Option.map_some, Option.some.injEq]; ext <;> simp; ring
  · split
    · rfl
    · simp only [Option.map_some, Option.some.injEq]; ext <;> simp <;> ring

theorem addOff_shift (o : Option V3) (v δ : V3) : addOff (o.map (· + δ)) v = movePos δ (addOff o v) := by
  cases o with
  | none => rfl
  | some o => simp [addOff, movePos]; abel

theorem addOff_move (o : Option V3) (v δ : V3) : addOff o (v + δ) = movePos δ (addOff o v) := by
  cases o with
  | none => rfl
  | some o => simp [addOff, movePos]; abel

theorem shift_inv {p : Plane} (hp : PlaneInv p) (a : ℕ) (δ : V3) : PlaneInv (p.shift a δ) :=
  hp.modify (harmless_shift δ) a

theorem pos_shift {p : Plane} (hp : PlaneInv p) (a : ℕ) (δ : V3) : ∀ (b : ℕ) {w : Wing}, p.heap[b]? = some w →
    ∀ {s : Seg}, s ∈ w.segments → ∀ (t : TipAt),
    (Attached p b a → (p.shift a δ).segPosition (shiftAt a b δ s) t = movePos δ (p.segPosition s t)) ∧
    (¬ Attached p b a → (p.shift a δ).segPosition (shiftAt a b δ s) t = p.segPosition s t) := by
  intro b
  induction b using Nat.strong_induction_on with
  | _ b ih =>
    intro w hb s hs t
    have hp' := shift_inv hp a δ
    have hb' : (p.shift a δ).heap[b]? = some (w.mapSegs (shiftAt a b δ)) := by rw [shift_heap, hb]; rfl
    have hs' : shiftAt a b δ s ∈ (w.mapSegs (shiftAt a b δ)).segments := by
      rw [segments_map]; exact List.mem_map_of_mem hs
    have hpp : ∀ {o : Option V3} {v : V3} {t : TipAt}, (shiftAt a b δ s).tipOffset t =
        if b = a then (s.tipOffset t).map (· + δ) else s.tipOffset t := by
      intro o v t
      unfold shiftAt
      split
      · exact tipOffset_shift δ s t
      · rfl
    have hoff : ∀ v t, addOff ((shiftAt a b δ s).tipOffset t) v =
        if b = a then movePos δ (addOff (s.tipOffset t) v) else addOff (s.tipOffset t) v := by
      intro v t
      unfold shiftAt
      split
      · rw [tipOffset_shift, addOff_shift]
      · rfl
    have hbase : basePos (p.shift a δ) (shiftAt a b δ s) = basePos p s := by
      unfold basePos; rw [shiftAt_parent]; rfl
    -- own wing displaced or not when nothing above is displaced
    rw [segPosition_succ hp hb hs, segPosition_succ hp' hb' hs', shift_connTarget]
    cases hc : connTarget p s with
    | error e =>
      cases hpar : s.parent <;> exact ⟨fun _ => rfl, fun _ => rfl⟩
    | ok o =>
      cases o with
      | none =>
        have hnw : ∀ id, s.parent ≠ .wing id := by
          intro id hid
          unfold connTarget at hc
          rw [hid] at hc
          simp only at hc
          split at hc
          · simp at hc
          split at hc
          · simp at hc
          · split at hc <;> simp at hc
          · split at hc <;> simp at hc
        have hno : ∀ c, ¬ ParentOf p b c := by
          intro c hpo
          obtain ⟨w1, s1, hw1, hs1, hp1⟩ := hpo
          have : w1 = w := by rw [hb] at hw1; simpa using hw1.symm
          subst this
          cases w1 with
          | both l r =>
            have ht := (hp.wing b _ hb).twin _ _ rfl
            have hall : ∀ q ∈ (Wing.both l r).segments, q.parent = r.parent := by
              intro q hq; simp [Wing.segments] at hq; rcases hq with rfl | rfl
              · exact ht.parent
              · rfl
            rw [hall s1 hs1, ← hall s hs] at hp1
            exact hnw c hp1
          | onlyLeft l => simp [Wing.segments] at hs hs1; subst hs; subst hs1; exact hnw c hp1
          | onlyRight r => simp [Wing.segments] at hs hs1; subst hs; subst hs1; exact hnw c hp1
        have hatt : Attached p b a ↔ b = a := by
          constructor
          · intro h
            rcases Relation.ReflTransGen.cases_head h with h | ⟨c, h, _⟩
            · exact h
            · exact absurd h (hno c)
          · rintro rfl; exact .refl
        cases hpar : s.parent with
        | none => simp only [hbase, hoff, hatt]; constructor <;> intro h <;> simp [h]
        | plane => simp only [hbase, hoff, hatt]; constructor <;> intro h <;> simp [h]
        | wing id => exact absurd hpar (hnw id)
      | some qt =>
        obtain ⟨q, t'⟩ := qt
        obtain ⟨id, w', hpar, hw', hq, _, _, _⟩ := connTarget_mem hc
        have hpo : ParentOf p b id := ⟨w, s, hb, hs, hpar⟩
        rw [hpar]
        simp only
        rcases Nat.lt_or_ge id b with hlt | hge
        · obtain ⟨ih1, ih2⟩ := ih id hlt hw' hq t'
          have hatt : Attached p b a ↔ b = a ∨ Attached p id a := by
            constructor
            · intro h
              rcases Relation.ReflTransGen.cases_head h with h | ⟨c, h, h'⟩
              · exact .inl h
              · have := parentOf_unique hp h hpo; subst this; exact .inr h'
            · rintro (rfl | h)
              · exact .refl
              · exact .head hpo h
          by_cases hba : b = a
          · have hnid : ¬ Attached p id a := fun h => by have := attached_le hp h; omega
            rw [ih2 hnid]
            constructor
            · intro _
              cases p.segPosition q t' with
              | error e => rfl
              | ok v => simp only [hoff, if_pos hba]
            · intro h; exact absurd (hatt.2 (.inl hba)) h
          · constructor
            · intro h
              have hid : Attached p id a := (hatt.1 h).resolve_left hba
              rw [ih1 hid]
              cases p.segPosition q t' with
              | error e => rfl
              | ok v => simp only [movePos, hoff, if_neg hba, addOff_move]
            · intro h
              have hid : ¬ Attached p id a := fun h' => h (hatt.2 (.inr h'))
              rw [ih2 hid]
              cases p.segPosition q t' with
              | error e => rfl
              | ok v => simp only [hoff, if_neg hba]
        · have hid : id = b := by have := parentOf_le hp hpo; omega
          subst hid
          have hqs := connTarget_self hp hb hs hpar hc
          subst hqs
          have h1 : p.segPosition q t' = .error .recursion := self_recursion hp hb hs hpar hc _ _
          have hc' : connTarget (p.shift a δ) (shiftAt a id δ q) = .ok (some (shiftAt a id δ q, t')) := by
            rw [shift_connTarget, hpar, hc]
          have h2 : (p.shift a δ).segPosition (shiftAt a id δ q) t' = .error .recursion :=
            self_recursion hp' hb' hs' (by rw [shiftAt_parent, hpar]) hc' _ _
          rw [h1, h2]
          exact ⟨fun _ => rfl, fun _ => rfl⟩

private theorem shift_modify {l : List Wing} {a id : ℕ} {f g : Wing → Wing} (h : ∀ w, f (g w) = g (f w)) :
    (l.modify a f).modify id g = (l.modify id g).modify a f := by
  apply List.ext_getElem?
  intro k
  simp only [List.getElem?_modify, Option.map_eq_map]
  cases l[k]? with
  | none => rfl
  | some w =>
    simp only [Option.map_some, Option.some.injEq]
    split <;> split <;> simp [h]

private theorem mapSegs_comm {f g : Seg → Seg} (h : ∀ s, f (g s) = g (f s)) (w : Wing) :
    (w.mapSegs g).mapSegs f = (w.mapSegs f).mapSegs g := by
  cases w <;> simp [Wing.mapSegs, h]

private theorem shift_run (a : ℕ) (δ : V3) {p : Plane} (ha : a < p.heap.length) (op : PlaneOp) :
    op.run (p.shift a δ) = (op.run p).shift a δ := by
  cases op with
  | addWing name parent location side d =>
    simp only [PlaneOp.run, addWing_eq]
    have hlen : (p.shift a δ).heap.length = p.heap.length := by simp [Plane.shift]
    have happ : ∀ w : Wing, (p.shift a δ).heap ++ [w] = (p.heap ++ [w]).modify a (·.mapSegs (Seg.shift δ)) := by
      intro w
      simp only [Plane.shift]
      apply List.ext_getElem?
      intro k
      simp only [List.getElem?_modify, Option.map_eq_map]
      by_cases hk : k < p.heap.length
      · rw [List.getElem?_append_left (by simpa using hk), List.getElem?_append_left hk, List.getElem?_modify]; rfl
      · rw [List.getElem?_append_right (by simpa using hk), List.getElem?_append_right (by omega)]
        simp only [List.length_modify]
        cases [w][k - p.heap.length]? with
        | none => rfl
        | some w => simp only [Option.map_some, Option.some.injEq]; rw [if_neg (by omega)]
    rw [hlen]
    have hw : (p.shift a δ).wings = p.wings := rfl
    rw [hw]
    cases mkWing name side d with
    | error e => rfl
    | ok w =>
      simp only
      cases targetOf (dictSet p.wings name p.heap.length) parent with
      | error e => simp only [happ]; rfl
      | ok t => simp only [happ]; rfl
  | airfoil id name e props =>
    simp only [PlaneOp.run, Plane.wingAirfoil]
    cases mkAirfoil name props with
    | error e => rfl
    | ok af =>
      simp only [Plane.shift]
      rw [shift_modify]
      intro w
      apply mapSegs_comm
      intro s
      simp only [Seg.setAirfoil, Seg.shift]
      split
      · rfl
      split
      · rfl
      split <;> rfl
  | controlSurface id props =>
    simp only [PlaneOp.run, Plane.wingCtrl]
    cases mkCtrlSurf props with
    | error e => rfl
    | ok c =>
      simp only [Plane.shift]
      rw [shift_modify]
      intro w
      apply mapSegs_comm
      intro s
      rfl
  | addProp name d => rfl
  | propAirfoil name af props =>
    simp only [PlaneOp.run, Plane.propAirfoil]
    cases mkAirfoil af props with
    | error e => rfl
    | ok c => simp only [Plane.shift]; cases dictGet p.props name <;> rfl
  | cgLocation x y z => rfl
  | setRefLengths a b => rfl

private theorem run_length {p : Plane} (op : PlaneOp) : p.heap.length ≤ (op.run p).heap.length := by
  cases op with
  | addWing name parent location side d =>
    rcases addWing_cases p name parent location side d with ⟨_, h2⟩ | ⟨w, w', hw, h2, hcase⟩
    · simp only [PlaneOp.run]; rw [h2]
    · simp only [PlaneOp.run]; rw [h2]; simp
  | airfoil id name e props => simp only [PlaneOp.run, Plane.wingAirfoil]; split <;> simp
  | controlSurface id props => simp only [PlaneOp.run, Plane.wingCtrl]; split <;> simp
  | addProp name d => exact le_rfl
  | propAirfoil name af props =>
    simp only [PlaneOp.run, Plane.propAirfoil]
    split
    · exact le_rfl
    · split <;> exact le_rfl
  | cgLocation x y z => exact le_rfl
  | setRefLengths a b => exact le_rfl

private theorem shift_runOps (a : ℕ) (δ : V3) (ops : List PlaneOp) :
    ∀ {p : Plane}, a < p.heap.length → runOps (p.shift a δ) ops = (runOps p ops).shift a δ := by
  induction ops with
  | nil => intro p _; rfl
  | cons op t ih =>
    intro p ha
    simp only [runOps, List.foldl_cons] at ih ⊢
    rw [shift_run a δ ha, ih (lt_of_lt_of_le ha (run_length op))]

/-- the same dimensions at a displaced position -/
def WingDims.displaced (d : WingDims) (δ : V3) : WingDims := { d with position := some (d.position.getD 0 + δ) }

private theorem mkSeg_displaced (name : String) (side : Side) (d : WingDims) (δ : V3) :
    mkSeg name side (d.displaced δ) = (mkSeg name side d).shift δ := by
  simp [mkSeg, WingDims.displaced, Seg.shift]

private theorem mkWing_displaced (name side : String) (d : WingDims) (δ : V3) :
    mkWing name side (d.displaced δ) = (match mkWing name side d with
      | .ok w => .ok (w.mapSegs (Seg.shift δ))
      | .error e => .error e) := by
  unfold mkWing
  split
  · simp [Wing.mapSegs, mkSeg_displaced]
  split
  · simp [Wing.mapSegs, mkSeg_displaced]
  split
  · simp [Wing.mapSegs, mkSeg_displaced]
  · rfl

private theorem addWing_displaced (p : Plane) (name : String) (parent : Option String) (location side : String)
    (d : WingDims) (δ : V3) (hside : ValidSide side) :
    (p.addWing name parent location side (d.displaced δ)).2 =
      ((p.addWing name parent location side d).2).shift p.heap.length δ ∧
    p.heap.length < ((p.addWing name parent location side d).2).heap.length := by
  rw [addWing_eq, addWing_eq, mkWing_displaced]
  have happ : ∀ w : Wing, p.heap ++ [w.mapSegs (Seg.shift δ)] =
      (p.heap ++ [w]).modify p.heap.length (·.mapSegs (Seg.shift δ)) := by
    intro w
    apply List.ext_getElem?
    intro k
    simp only [List.getElem?_modify, Option.map_eq_map]
    by_cases hk : k < p.heap.length
    · rw [List.getElem?_append_left hk, List.getElem?_append_left hk]
      cases p.heap[k]? with
      | none => rfl
      | some w => simp only [Option.map_some, Option.some.injEq]; rw [if_neg (by omega)]
    · rw [List.getElem?_append_right (by omega), List.getElem?_append_right (by omega)]
      by_cases h0 : k = p.heap.length
      · subst h0; simp
      · rw [List.getElem?_eq_none (by simp; omega), List.getElem?_eq_none (by simp; omega)]; rfl
  cases hw : mkWing name side d with
  | error e =>
    exfalso
    unfold mkWing at hw
    rcases hside with rfl | rfl | rfl <;> simp at hw
  | ok w =>
    simp only
    cases targetOf (dictSet p.wings name p.heap.length) parent with
    | error e => exact ⟨by simp only [Plane.shift, happ], by simp⟩
    | ok t =>
      refine ⟨?_, by simp⟩
      simp only [Plane.shift]
      rw [← happ]
      congr 3
      rw [mapSegs_comm]
      intro s; rfl

/-- C02 in terms of the connections stored (`C02_rigid` states it in terms of the calls). Take any build history and displace the `position` argument of one accepted `add_wing` call (the one that
creates wing object number `a`) by `δ`.  Then both tips of every segment of that wing, and of every wing attached to it
through any chain of connections, are displaced by exactly `δ`; every other wing stays where it was. -/
theorem rigid_attached (nm : String) (pos : Option V3) (pre post : List PlaneOp) (name : String) (parent : Option String)
    (location side : String) (d : WingDims) (δ : V3) (hside : ValidSide side) :
    let p := built nm pos (pre ++ .addWing name parent location side d :: post)
    let p' := built nm pos (pre ++ .addWing name parent location side (d.displaced δ) :: post)
    let a := (built nm pos pre).heap.length
    ∀ (b : ℕ) (w : Wing), p.heap[b]? = some w → ∃ w', p'.heap[b]? = some w' ∧
      w'.segments.map (·.name) = w.segments.map (·.name) ∧
      ∀ (k : ℕ) (s s' : Seg), w.segments[k]? = some s → w'.segments[k]? = some s' → ∀ t : TipAt,
        (Attached p b a → p'.segPosition s' t = movePos δ (p.segPosition s t)) ∧
        (¬ Attached p b a → p'.segPosition s' t = p.segPosition s t) := by
  intro p p' a
  have hpp : p' = p.shift a δ := by
    simp only [p, p', a, built, runOps, List.foldl_append, List.foldl_cons]
    simp only [PlaneOp.run]
    obtain ⟨h1, h2⟩ := addWing_displaced (runOps (newPlane nm pos) pre) name parent location side d δ hside
    simp only [runOps] at h1 h2
    rw [h1]
    exact shift_runOps _ δ post h2
  have hp : PlaneInv p := built_inv _ _ _
  intro b w hb
  refine ⟨w.mapSegs (shiftAt a b δ), by rw [hpp, shift_heap, hb]; rfl, ?_, ?_⟩
  · rw [segments_map, List.map_map]
    apply List.map_congr_left
    intro s _
    simp only [Function.comp, shiftAt]
    split <;> rfl
  · intro k s s' hs hs' t
    rw [segments_map, List.getElem?_map, hs] at hs'
    simp only [Option.map_some, Option.some.injEq] at hs'
    subst hs'
    rw [hpp]
    exact pos_shift hp a δ b hb (List.mem_of_getElem? hs) t

/-- C02 in terms of the connection stored. The inboard end of a segment connected to a tip of wing object `c` is the
parent's tip on the same side, displaced by the segment's own offset, with `yoffset` pointing outboard. -/
theorem root_attached (nm : String) (pos : Option V3) (ops : List PlaneOp) (b c : ℕ) (w wc : Wing) (s q : Seg)
    (hb : (built nm pos ops).heap[b]? = some w) (hc : (built nm pos ops).heap[c]? = some wc) (hs : s ∈ w.segments)
    (hpar : s.parent = .wing c) (hloc : s.connectAt = s.side.str ++ "_tip") (hq : q ∈ wc.segments)
    (hside : q.side = s.side) :
    match s.side with
    | .right => (built nm pos ops).segPosition s .leftTip =
        movePos ⟨s.dpos.x, s.dpos.y + s.yoffset, s.dpos.z⟩ ((built nm pos ops).segPosition q .rightTip)
    | .left => (built nm pos ops).segPosition s .rightTip =
        movePos ⟨s.dpos.x, s.dpos.y - s.yoffset, s.dpos.z⟩ ((built nm pos ops).segPosition q .leftTip) := by
  have hp := built_inv nm pos ops
  generalize built nm pos ops = p at *
  obtain ⟨h1, h2⟩ := seg_of_side (hp.wing c wc hc) hq
  cases hss : s.side with
  | right =>
    have hct : connTarget p s = .ok (some (q, .rightTip)) := by
      unfold connTarget
      rw [hpar, hloc, hss]
      simp only [hc]
      rw [show Side.right.str ++ "_tip" = "right" ++ "_" ++ "tip" from rfl, ofStr_right, if_pos rfl]
      simp only [h2 (hside.trans hss)]
    simp only
    rw [segPosition_succ hp hb hs, hct]
    simp only [Seg.tipOffset, hss]
    cases p.segPosition q .rightTip with
    | error e => rfl
    | ok v => simp [addOff, movePos, add_comm]
  | left =>
    have hct : connTarget p s = .ok (some (q, .leftTip)) := by
      unfold connTarget
      rw [hpar, hloc, hss]
      simp only [hc]
      rw [show Side.left.str ++ "_tip" = "left" ++ "_" ++ "tip" from rfl, ofStr_left, if_pos rfl]
      simp only [h1 (hside.trans hss)]
    simp only
    rw [segPosition_succ hp hb hs, hct]
    simp only [Seg.tipOffset, hss]
    cases p.segPosition q .leftTip with
    | error e => rfl
    | ok v => simp [addOff, movePos, add_comm]

/-! ### C04 -/

/-- Wing object `b` and everything it is attached to are two-sided wings without lateral offset. -/
def SymmetricChain (p : Plane) (b : ℕ) : Prop :=
  ∀ c, Attached p b c → ∃ l r, p.heap[c]? = some (.both l r) ∧ r.dpos.y = 0

theorem mir_pos {p : Plane} (hp : PlaneInv p) (hpl : p.getPosition.y = 0) : ∀ (b : ℕ), SymmetricChain p b →
    ∀ {l r : Seg}, p.heap[b]? = some (.both l r) →
    p.segPosition l .leftTip = mirPos (p.segPosition r .rightTip) ∧
    p.segPosition l .rightTip = mirPos (p.segPosition r .leftTip) := by
  intro b
  induction b using Nat.strong_induction_on with
  | _ b ih =>
    intro hsym l r hb
    have ht := (hp.wing b _ hb).twin _ _ rfl
    have hls : l ∈ (Wing.both l r).segments := by simp [Wing.segments]
    have hrs : r ∈ (Wing.both l r).segments := by simp [Wing.segments]
    have hdy : r.dpos.y = 0 := by
      obtain ⟨l', r', h1, h2⟩ := hsym b .refl
      rw [hb] at h1
      simp only [Option.some.injEq, Wing.both.injEq] at h1
      rw [h1.2]; exact h2
    have hoff1 : ∀ v, addOff (l.tipOffset .leftTip) (mir v) = mirPos (addOff (r.tipOffset .rightTip) v) := by
      intro v
      simp only [Seg.tipOffset, ht.lside, ht.rside, ht.dpos, ht.span, ht.sweep, ht.dihedral, ht.yoffset]
      split
      · rfl
      · simp only [addOff, mirPos, Except.ok.injEq]
        ext <;> simp [hdy]; ring
    have hoff2 : ∀ v, addOff (l.tipOffset .rightTip) (mir v) = mirPos (addOff (r.tipOffset .leftTip) v) := by
      intro v
      simp only [Seg.tipOffset, ht.lside, ht.rside, ht.dpos, ht.yoffset]
      simp only [addOff, mirPos, Except.ok.injEq]
      ext <;> simp [hdy]; ring
    rw [segPosition_succ hp hb hls, segPosition_succ hp hb hls, segPosition_succ hp hb hrs, segPosition_succ hp hb hrs]
    have hbase : basePos p l = mir (basePos p r) := by
      unfold basePos
      rw [ht.parent]
      cases r.parent with
      | none => ext <;> simp
      | plane => ext <;> simp [hpl]
      | wing id => ext <;> simp
    have hcases : (connTarget p l = .ok none ∧ connTarget p r = .ok none) ∨
        (∃ e, connTarget p l = .error e ∧ connTarget p r = .error e) ∨
        ∃ id l' r', p.heap[id]? = some (.both l' r') ∧ r.parent = .wing id ∧
          connTarget p l = .ok (some (l', .leftTip)) ∧ connTarget p r = .ok (some (r', .rightTip)) := by
      unfold connTarget
      rw [ht.parent]
      cases hpar : r.parent with
      | none => exact .inl ⟨rfl, rfl⟩
      | plane => exact .inl ⟨rfl, rfl⟩
      | wing id =>
        obtain ⟨l', r', h1, h2⟩ := hsym id (.head ⟨_, r, hb, hrs, hpar⟩ .refl)
        obtain ⟨loc, hl, hr⟩ := ht.connect.resolve_left (by rw [ht.parent, hpar]; simp)
        rw [hl, hr]
        simp only [h1]
        rw [show ("left_" : String) = "left" ++ "_" from rfl, show ("right_" : String) = "right" ++ "_" from rfl,
          ofStr_left, ofStr_right]
        by_cases hloc : loc = "tip"
        · right; right
          exact ⟨id, l', r', h1, rfl, by simp [hloc, Wing.leftSeg], by simp [hloc, Wing.rightSeg]⟩
        · right; left
          exact ⟨.runtime, by simp [hloc], by simp [hloc]⟩
    rcases hcases with ⟨h1, h2⟩ | ⟨e, h1, h2⟩ | ⟨id, l', r', hid, hpar, h1, h2⟩
    · rw [h1, h2]
      simp only [hbase]
      exact ⟨hoff1 _, hoff2 _⟩
    · rw [h1, h2]; exact ⟨rfl, rfl⟩
    · have hpo : ParentOf p b id := ⟨_, r, hb, hrs, hpar⟩
      rcases Nat.lt_or_ge id b with hlt | hge
      · obtain ⟨ih1, _⟩ := ih id hlt (fun c hc => hsym c (.head hpo hc)) hid
        rw [h1, h2]
        simp only [ih1]
        cases p.segPosition r' .rightTip with
        | error e => exact ⟨rfl, rfl⟩
        | ok v => exact ⟨hoff1 v, hoff2 v⟩
      · have : id = b := by have := parentOf_le hp hpo; omega
        subst this
        have e1 : p.segPosition l' .leftTip = .error .recursion := by
          have := connTarget_self hp hb hls (by rw [ht.parent, hpar]) h1
          subst this
          exact self_recursion hp hb hls (by rw [ht.parent, hpar]) h1 _ _
        have e2 : p.segPosition r' .rightTip = .error .recursion := by
          have := connTarget_self hp hb hrs hpar h2
          subst this
          exact self_recursion hp hb hrs hpar h2 _ _
        rw [h1, h2]
        simp only [e1, e2]
        exact ⟨rfl, rfl⟩

/-- no call changes the position given to the constructor -/
theorem runOps_position : ∀ (ops : List PlaneOp) (p : Plane), (runOps p ops).position = p.position := by
  intro ops
  induction ops with
  | nil => intro p; rfl
  | cons op t ih =>
    intro p
    simp only [runOps, List.foldl_cons] at ih ⊢
    rw [ih]
    cases op with
    | addWing name parent location side d =>
      simp only [PlaneOp.run]
      rcases addWing_cases p name parent location side d with ⟨_, h2⟩ | ⟨w, w', hw, h2, hcase⟩ <;> rw [h2]
    | airfoil id name e props => simp only [PlaneOp.run, Plane.wingAirfoil]; split <;> rfl
    | controlSurface id props => simp only [PlaneOp.run, Plane.wingCtrl]; split <;> rfl
    | addProp name d => rfl
    | propAirfoil name af props =>
      simp only [PlaneOp.run, Plane.propAirfoil]
      cases mkAirfoil af props with
      | error e => rfl
      | ok c => cases dictGet p.props name <;> rfl
    | cgLocation x y z => rfl
    | setRefLengths a b => rfl

theorem built_position (nm : String) (pos : Option V3) (ops : List PlaneOp) : (built nm pos ops).position = pos :=
  runOps_position ops _

/-- On every plane built through the API whose own position is on the x-z plane: for a two-sided wing without
lateral offset that is attached to the plane directly or through such wings, the left segment's tips are the mirror
images of the right segment's tips (outer with outer, inner with inner). -/
theorem mirror_chain (nm : String) (pos : Option V3) (ops : List PlaneOp) (hpos : ∀ v, pos = some v → v.y = 0)
    (b : ℕ) (l r : Seg) (hb : (built nm pos ops).heap[b]? = some (.both l r))
    (hsym : SymmetricChain (built nm pos ops) b) :
    (built nm pos ops).segPosition l .leftTip = mirPos ((built nm pos ops).segPosition r .rightTip) ∧
    (built nm pos ops).segPosition l .rightTip = mirPos ((built nm pos ops).segPosition r .leftTip) := by
  have hpl : (built nm pos ops).getPosition.y = 0 := by
    have : (built nm pos ops).position = pos := built_position nm pos ops
    unfold Plane.getPosition
    rw [this]
    cases pos with
    | none => rfl
    | some v => exact hpos v rfl
  exact mir_pos (built_inv nm pos ops) hpl b hsym hb

/-! ### Non-vacuity: a wing with winglets on its tips -/

/-- a two-sided main wing and two-sided winglets on its tips -/
def tipOps : List PlaneOp :=
  [.addWing "Main" none "tip" "both" { semispan := some 4, sweep := some 30 },
   .addWing "Winglet" (some "Main") "tip" "both" { semispan := some 1, dihedral := some 80, yoffset := some 0.1 }]

/-- the winglets (object 1) are attached to the main wing (object 0), and not the other way round -/
example : Attached (built "p" none tipOps) 1 0 ∧ ¬ Attached (built "p" none tipOps) 0 1 := by
  refine ⟨.single ⟨_, _, rfl, List.mem_cons_self, rfl⟩, fun h => ?_⟩
  have := attached_le (built_inv _ _ _) h
  omega

/-- `mirror_chain` applies to the winglets -/
example : SymmetricChain (built "p" none tipOps) 1 := by
  intro c hc
  have := attached_le (built_inv _ _ _) hc
  rcases Nat.le_one_iff_eq_zero_or_eq_one.1 this with rfl | rfl
  · exact ⟨_, _, rfl, by simp [mkSeg, Seg.connectTo]⟩
  · exact ⟨_, _, rfl, by simp [mkSeg, Seg.connectTo]⟩

end Verif
