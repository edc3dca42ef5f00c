import Verif.Thm.WingShape
import Verif.Spec.PlaneImage

/-!
# Wings attached to wings, in terms of the calls made (C02)
-/

namespace Verif
open V3

theorem built_length (nm : String) (pos : Option V3) (ops : List PlaneOp) :
    (built nm pos ops).heap.length = wingsCreated ops := by
  have := created_runOps ops (newPlane nm pos)
  rw [show (newPlane nm pos).heap.length = 0 from rfl, zero_add] at this
  exact this

private theorem wings_run (p : Plane) (op : PlaneOp) :
    (op.run p).wings = match op with
      | .addWing name _ _ side _ => if ValidSide side then dictSet p.wings name p.heap.length else p.wings
      | _ => p.wings := by
  cases op with
  | addWing name parent location side d =>
    simp only [PlaneOp.run, addWing_eq]
    by_cases hs : ValidSide side
    · have : ∃ w, mkWing name side d = .ok w := by rcases hs with rfl | rfl | rfl <;> exact ⟨_, rfl⟩
      obtain ⟨w, hw⟩ := this
      rw [hw, if_pos hs]
      simp only
      cases targetOf (dictSet p.wings name p.heap.length) parent <;> rfl
    · have : mkWing name side d = .error .runtime := by
        unfold ValidSide at hs
        push Not at hs
        simp [mkWing, hs.1, hs.2.1, hs.2.2]
      rw [this, if_neg hs]
  | airfoil id name e props =>
    simp only [PlaneOp.run, Plane.wingAirfoil]
    cases mkAirfoil name props <;> rfl
  | controlSurface id props =>
    simp only [PlaneOp.run, Plane.wingCtrl]
    cases mkCtrlSurf props <;> rfl
  | addProp name d => rfl
  | propAirfoil name af props =>
    simp only [PlaneOp.run, Plane.propAirfoil]
    cases mkAirfoil af props with
    | error er => rfl
    | ok a => simp only; cases dictGet p.props name <;> rfl
  | cgLocation x y z => rfl
  | setRefLengths a b => rfl

/-- appending a call that is not an accepted `add_wing` with the name changes nothing about the name -/
private theorem names_snoc_other {ops : List PlaneOp} {op : PlaneOp} {name : String} {c : ℕ}
    (h : ∀ parent location side d, op = .addWing name parent location side d → ¬ ValidSide side) :
    Names (ops ++ [op]) name c ↔ Names ops name c := by
  constructor
  · rintro ⟨pre, parent, location, side, d, post, hops, hs, hc, hpost⟩
    rcases List.eq_nil_or_concat post with rfl | ⟨post', o, rfl⟩
    · obtain ⟨_, h2⟩ := List.append_inj' (t₁ := [op]) (t₂ := [.addWing name parent location side d]) hops rfl
      exact absurd hs (h _ _ _ _ (List.cons.inj h2).1)
    · rw [List.concat_eq_append, ← List.cons_append, ← List.append_assoc] at hops
      obtain ⟨h1, _⟩ := List.append_inj' hops rfl
      exact ⟨pre, parent, location, side, d, post', h1, hs, hc,
        fun a b e f hm => hpost a b e f (by rw [List.concat_eq_append]; exact List.mem_append_left _ hm)⟩
  · rintro ⟨pre, parent, location, side, d, post, rfl, hs, hc, hpost⟩
    refine ⟨pre, parent, location, side, d, post ++ [op], by simp, hs, hc, ?_⟩
    intro a b e f hm
    rcases List.mem_append.1 hm with hm | hm
    · exact hpost a b e f hm
    · exact h a b e f (List.mem_singleton.1 hm).symm

/-- the name dictionary says what the calls say -/
theorem names_iff (nm : String) (pos : Option V3) (ops : List PlaneOp) : ∀ (name : String) (c : ℕ),
    dictGet (built nm pos ops).wings name = some c ↔ Names ops name c := by
  induction ops using List.reverseRecOn with
  | nil =>
    intro name c
    constructor
    · intro h; cases h
    · rintro ⟨pre, _, _, _, _, _, h, _⟩
      cases pre <;> cases h
  | append_singleton ops op ih =>
    intro name c
    have hb : built nm pos (ops ++ [op]) = op.run (built nm pos ops) := by
      simp [built, runOps, List.foldl_append]
    rw [hb, wings_run]
    by_cases hop : ∃ parent location side d, op = .addWing name parent location side d ∧ ValidSide side
    · obtain ⟨parent, location, side, d, rfl, hs⟩ := hop
      simp only [if_pos hs, dictGet_dictSet, if_true, Option.some.injEq, built_length]
      constructor
      · rintro rfl
        exact ⟨ops, parent, location, side, d, [], rfl, hs, rfl, by simp⟩
      · rintro ⟨pre, parent', location', side', d', post, hops, hs', hc, hpost⟩
        rcases List.eq_nil_or_concat post with rfl | ⟨post', o, rfl⟩
        · obtain ⟨h1, _⟩ := List.append_inj' hops rfl
          rw [hc, h1]
        · exfalso
          rw [List.concat_eq_append, ← List.cons_append, ← List.append_assoc] at hops
          obtain ⟨_, h2⟩ := List.append_inj' hops rfl
          obtain rfl := (List.cons.inj h2).1
          exact hpost parent location side d (by simp) hs
    · have hop' : ∀ parent location side d, op = .addWing name parent location side d → ¬ ValidSide side :=
        fun a b e f h hs => hop ⟨a, b, e, f, h, hs⟩
      rw [names_snoc_other hop', ← ih]
      cases op with
      | addWing name' parent location side d =>
        simp only
        by_cases hs : ValidSide side
        · rw [if_pos hs, dictGet_dictSet, if_neg]
          rintro rfl
          exact hop' _ _ _ _ rfl hs
        · rw [if_neg hs]
      | _ => rfl

/-- what the segments of a wing are connected to, in terms of the calls -/
theorem wing_target (nm : String) (pos : Option V3) (pre post : List PlaneOp) (name : String) (parent : Option String)
    (location side : String) (d : WingDims) (hs : ValidSide side) :
    ∃ w, (built nm pos (pre ++ .addWing name parent location side d :: post)).heap[wingsCreated pre]? = some w ∧
      w.segments ≠ [] ∧
      ∀ s ∈ w.segments,
        match targetOf (built nm pos (pre ++ [.addWing name parent location side d])).wings parent with
        | .ok t => s.parent = t ∧ s.connectAt = s.side.str ++ "_" ++ location
        | .error _ => s.parent = .none := by
  generalize hT : targetOf (built nm pos (pre ++ [.addWing name parent location side d])).wings parent = T
  rw [show pre ++ PlaneOp.addWing name parent location side d :: post =
    (pre ++ [.addWing name parent location side d]) ++ post by simp, built_split]
  let Q : Seg → Prop := fun s => (∀ t, T = .ok t → s.parent = t ∧ s.connectAt = s.side.str ++ "_" ++ location) ∧
    (∀ e, T = .error e → s.parent = .none)
  have hQ : ∀ s s' : Seg, s'.parent = s.parent → s'.connectAt = s.connectAt → s'.side = s.side → Q s → Q s' := by
    intro s s' h1 h2 h3 h
    simp only [Q, h1, h2, h3] at h ⊢
    exact h
  suffices hkey : ∃ w : Wing, (runOps (built nm pos (pre ++ [.addWing name parent location side d])) post).heap[wingsCreated
      pre]? = some w ∧ w.segments ≠ [] ∧ ∀ s ∈ w.segments, Q s by
    obtain ⟨w, hw, hne, h⟩ := hkey
    refine ⟨w, hw, hne, fun s hsm => ?_⟩
    have := h s hsm
    clear hT
    cases T with
    | ok t => exact this.1 t rfl
    | error e => exact this.2 e rfl
  refine heap_keeps (P := fun w => w.segments ≠ [] ∧ ∀ s ∈ w.segments, Q s) post ?_ ?_
  · intro op _
    cases op with
    | airfoil i name' e props =>
      intro _ a _ w hP
      refine ⟨by cases w <;> simp [Wing.mapSegs, Wing.segments], fun s hsm => ?_⟩
      obtain ⟨s0, hs0, rfl⟩ := mem_segments_mapSegs hsm
      refine hQ s0 _ ?_ ?_ ?_ (hP.2 s0 hs0) <;> unfold Seg.setAirfoil <;> split_ifs <;> rfl
    | controlSurface i props =>
      intro _ c _ w hP
      refine ⟨by cases w <;> simp [Wing.mapSegs, Wing.segments], fun s hsm => ?_⟩
      obtain ⟨s0, hs0, rfl⟩ := mem_segments_mapSegs hsm
      exact hQ s0 _ rfl rfl rfl (hP.2 s0 hs0)
    | _ => trivial
  · have hmk : ∃ w, mkWing name side d = .ok w := by rcases hs with rfl | rfl | rfl <;> exact ⟨_, rfl⟩
    obtain ⟨w0, hw0⟩ := hmk
    have hw0' : w0.segments ≠ [] ∧ ∀ s ∈ w0.segments, s.parent = .none := by
      rcases hs with rfl | rfl | rfl <;> (have := (Except.ok.inj hw0).symm; subst this)
      · refine ⟨by simp [Wing.segments], fun s hsm => ?_⟩
        rcases (by simpa [Wing.segments] using hsm) with rfl | rfl <;> rfl
      · refine ⟨by simp [Wing.segments], fun s hsm => ?_⟩
        obtain rfl := (by simpa [Wing.segments] using hsm); rfl
      · refine ⟨by simp [Wing.segments], fun s hsm => ?_⟩
        obtain rfl := (by simpa [Wing.segments] using hsm); rfl
    have hlen := built_length nm pos pre
    rw [built_split] at hT ⊢
    simp only [runOps, List.foldl_cons, List.foldl_nil, PlaneOp.run, addWing_eq, hw0] at hT ⊢
    cases ht : targetOf (dictSet (built nm pos pre).wings name (built nm pos pre).heap.length) parent with
    | error e =>
      rw [ht] at hT
      simp only at hT
      rw [ht] at hT
      refine ⟨w0, by simp [← hlen], hw0'.1, fun s hsm => ?_⟩
      subst hT
      exact ⟨fun t h => by (cases h), fun _ _ => hw0'.2 s hsm⟩
    | ok t =>
      rw [ht] at hT
      simp only at hT
      rw [ht] at hT
      refine ⟨w0.mapSegs (·.connectTo t location), by simp [← hlen], ?_, fun s hsm => ?_⟩
      · have := hw0'.1
        cases w0 <;> simp [Wing.mapSegs, Wing.segments]
      · obtain ⟨s0, _, rfl⟩ := mem_segments_mapSegs hsm
        subst hT
        exact ⟨fun t' h => ⟨Except.ok.inj h, rfl⟩, fun e h => by (cases h)⟩

theorem targetOf_wing (wings : List (String × ℕ)) (parent : Option String) (c : ℕ) :
    targetOf wings parent = .ok (.wing c) ↔ ∃ q, parent = some q ∧ q ≠ "" ∧ dictGet wings q = some c := by
  unfold targetOf
  split
  · simp
  · simp
  · rename_i q hq
    cases h : dictGet wings q with
    | none => simp [h]
    | some i =>
      simp only [Except.ok.injEq, Parent.wing.injEq, Option.some.injEq]
      constructor
      · rintro rfl; exact ⟨q, rfl, fun h' => hq (by rw [h']), h⟩
      · rintro ⟨q', rfl, _, h'⟩; rw [h] at h'; exact Option.some.inj h'

/-- every wing object was created by an accepted `add_wing` call -/
theorem created_by {ops : List PlaneOp} {b : ℕ} (h : b < wingsCreated ops) :
    ∃ pre name parent location side d post, ops = pre ++ .addWing name parent location side d :: post ∧
      ValidSide side ∧ b = wingsCreated pre := by
  induction ops using List.reverseRecOn with
  | nil => simp [wingsCreated, addCalls] at h
  | append_singleton ops op ih =>
    by_cases hb : b < wingsCreated ops
    · obtain ⟨pre, name, parent, location, side, d, post, rfl, hs, hb'⟩ := ih hb
      exact ⟨pre, name, parent, location, side, d, post ++ [op], by simp, hs, hb'⟩
    · rw [wingsCreated_append] at h
      cases op with
      | addWing name parent location side d =>
        by_cases hs : ValidSide side
        · simp [wingsCreated, addCalls, hs] at h hb
          exact ⟨ops, name, parent, location, side, d, [], rfl, hs, by simp [wingsCreated, addCalls]; omega⟩
        · simp [wingsCreated, addCalls, hs] at h hb; omega
      | _ => simp [wingsCreated, addCalls] at h hb; omega

/-- the connections stored are those the calls ask for -/
theorem parentOf_iff (nm : String) (pos : Option V3) (ops : List PlaneOp) (b c : ℕ) :
    ParentOf (built nm pos ops) b c ↔ ConnectedBy ops b c := by
  constructor
  · rintro ⟨w, s, hw, hsm, hpar⟩
    have hb : b < wingsCreated ops := by
      rw [← built_length nm pos ops]; exact (List.getElem?_eq_some_iff.1 hw).1
    obtain ⟨pre, name, parent, location, side, d, post, rfl, hs, rfl⟩ := created_by hb
    obtain ⟨w', hw', _, h⟩ := wing_target nm pos pre post name parent location side d hs
    rw [hw] at hw'
    obtain rfl := Option.some.inj hw'
    have h := h s hsm
    cases ht : targetOf (built nm pos (pre ++ [.addWing name parent location side d])).wings parent with
    | error e => rw [ht] at h; simp only at h; rw [h] at hpar; cases hpar
    | ok t =>
      rw [ht] at h
      simp only at h
      rw [h.1] at hpar
      subst hpar
      obtain ⟨q, rfl, hq, hd⟩ := (targetOf_wing _ _ _).1 ht
      exact ⟨pre, name, q, location, side, d, post, rfl, hs, hq, rfl, (names_iff nm pos _ _ _).1 hd⟩
  · rintro ⟨pre, name, parent, location, side, d, post, rfl, hs, hq, rfl, hn⟩
    obtain ⟨w, hw, hne, h⟩ := wing_target nm pos pre post name (some parent) location side d hs
    rw [(targetOf_wing _ _ c).2 ⟨parent, rfl, hq, (names_iff nm pos _ _ _).2 hn⟩] at h
    obtain ⟨s, hsm⟩ := List.exists_mem_of_ne_nil _ hne
    exact ⟨w, s, hw, hsm, (h s hsm).1⟩

theorem attached_iff (nm : String) (pos : Option V3) (ops : List PlaneOp) (b a : ℕ) :
    Attached (built nm pos ops) b a ↔ Relation.ReflTransGen (ConnectedBy ops) b a := by
  have : ParentOf (built nm pos ops) = ConnectedBy ops := by
    funext b c
    exact propext (parentOf_iff nm pos ops b c)
  rw [Attached, this]

/-- **C02.** Take any build history and displace the `position` argument of one accepted `add_wing` call (the one that
creates wing object number `a`) by `δ`.  Then both tips of every segment of that wing, and of every wing that the calls
connect to it through any chain of connections, are displaced by exactly `δ`; every other wing stays where it was. -/
theorem C02_rigid (nm : String) (pos : Option V3) (pre post : List PlaneOp) (name : String) (parent : Option String)
    (location side : String) (d : WingDims) (δ : V3) (hside : ValidSide side) :
    let ops := pre ++ .addWing name parent location side d :: post
    let ops' := pre ++ .addWing name parent location side (d.displaced δ) :: post
    ∀ b < wingsCreated ops, ∃ w w', (built nm pos ops).heap[b]? = some w ∧ (built nm pos ops').heap[b]? = some w' ∧
      w'.segments.map (·.name) = w.segments.map (·.name) ∧
      ∀ (k : ℕ) (s s' : Seg), w.segments[k]? = some s → w'.segments[k]? = some s' → ∀ t : TipAt,
        (Relation.ReflTransGen (ConnectedBy ops) b (wingsCreated pre) →
          (built nm pos ops').segPosition s' t = movePos δ ((built nm pos ops).segPosition s t)) ∧
        (¬ Relation.ReflTransGen (ConnectedBy ops) b (wingsCreated pre) →
          (built nm pos ops').segPosition s' t = (built nm pos ops).segPosition s t) := by
  intro ops ops' b hb
  have hlt : b < (built nm pos ops).heap.length := by rw [built_length]; exact hb
  obtain ⟨w', hw', h1, h2⟩ := rigid_attached nm pos pre post name parent location side d δ hside b _
    (List.getElem?_eq_getElem hlt)
  refine ⟨_, w', List.getElem?_eq_getElem hlt, hw', h1, ?_⟩
  intro k s s' hk hk' t
  have := h2 k s s' hk hk' t
  rw [built_length, attached_iff] at this
  exact this

/-- **C02, root of an attached wing.** The root of each segment of a wing added at the tip of the wing then known as
`parent` is the parent's tip on the same side, displaced by the position given, with `yoffset` pointing outboard,
whatever is called before and afterwards. -/
theorem C02_root (nm : String) (pos : Option V3) (pre post : List PlaneOp) (name parent side : String) (d : WingDims)
    (hs : ValidSide side) (hparent : parent ≠ "") (c : ℕ)
    (hc : Names (pre ++ [.addWing name (some parent) "tip" side d]) parent c) :
    let p := built nm pos (pre ++ .addWing name (some parent) "tip" side d :: post)
    ∃ w wc, p.heap[wingsCreated pre]? = some w ∧ p.heap[c]? = some wc ∧
      ∀ s ∈ w.segments, ∀ q ∈ wc.segments, q.side = s.side →
        (s.side = .right → p.segPosition s .leftTip =
          movePos (d.position.getD 0 + ⟨0, d.yoffset.getD 0, 0⟩) (p.segPosition q .rightTip)) ∧
        (s.side = .left → p.segPosition s .rightTip =
          movePos (d.position.getD 0 - ⟨0, d.yoffset.getD 0, 0⟩) (p.segPosition q .leftTip)) := by
  intro p
  obtain ⟨w, hw, _, hsays⟩ := C92_dimensions nm pos pre post name (some parent) "tip" side d hs
  obtain ⟨w', hw', _, h⟩ := wing_target nm pos pre post name (some parent) "tip" side d hs
  rw [hw] at hw'
  obtain rfl := Option.some.inj hw'
  rw [(targetOf_wing _ _ c).2 ⟨parent, rfl, hparent, (names_iff nm pos _ _ _).2 hc⟩] at h
  have hlt : c < p.heap.length := by
    have hpc : p.heap.length = wingsCreated (pre ++ .addWing name (some parent) "tip" side d :: post) := built_length _ _ _
    rw [hpc]
    obtain ⟨pre', parent', location', side', d', post', h1, h2, h3, _⟩ := hc
    rw [show pre ++ PlaneOp.addWing name (some parent) "tip" side d :: post =
      (pre ++ [.addWing name (some parent) "tip" side d]) ++ post by simp, h1, wingsCreated_append, wingsCreated_append,
      show PlaneOp.addWing parent parent' location' side' d' :: post' =
        [.addWing parent parent' location' side' d'] ++ post' from rfl, wingsCreated_append, h3]
    have : wingsCreated [.addWing parent parent' location' side' d'] = 1 := by simp [wingsCreated, addCalls, h2]
    omega
  refine ⟨w, _, hw, List.getElem?_eq_getElem hlt, fun s hsm q hq hside => ?_⟩
  have hroot := root_attached nm pos _ _ c w _ s q hw (List.getElem?_eq_getElem hlt) hsm (h s hsm).1
    ((h s hsm).2.trans (by cases s.side <;> rfl)) hq hside
  have hS := hsays s hsm
  constructor <;> intro hss <;> rw [hss] at hroot <;> simp only at hroot <;> rw [hroot, hS.dpos, hS.yoffset] <;>
    congr 1 <;> ext <;> simp

/-- **C03 (for every history).** A tip position query on any wing object finishes with a position or an error, unless the calls connect
the wing, directly or through other wings, to a wing that was connected to itself. -/
theorem C03_finishes_or_self (name : String) (pos : Option V3) (ops : List PlaneOp) (b : ℕ) (w : Wing)
    (hb : (built name pos ops).heap[b]? = some w) (s : Seg) (hs : s ∈ w.segments) (t : TipAt) :
    (∃ r, Finishes (built name pos ops) s t r) ∨
      ∃ c, Relation.ReflTransGen (ConnectedBy ops) b c ∧ ConnectedBy ops c c := by
  rcases finishes_or_self name pos ops b w hb s hs t with h | ⟨c, h1, h2⟩
  · exact .inl h
  · exact .inr ⟨c, (attached_iff _ _ _ _ _).1 h1, (parentOf_iff _ _ _ _ _).1 h2⟩

/-- the wing object of a call for both sides -/
theorem created_both {nm : String} {pos : Option V3} {ops : List PlaneOp} {c : ℕ} (h : CreatedTwoSided ops c) :
    ∃ l r, (built nm pos ops).heap[c]? = some (.both l r) ∧ r.dpos.y = 0 := by
  obtain ⟨pre, name, parent, location, d, post, rfl, rfl, hy⟩ := h
  obtain ⟨w, hw, hseg, hsays⟩ := C92_dimensions nm pos pre post name parent location "both" d (.inl rfl)
  cases w with
  | both l r => exact ⟨l, r, hw, by rw [(hsays r (by simp [Wing.segments])).dpos]; exact hy⟩
  | onlyLeft l => simp [Wing.segments, declaredSegs] at hseg
  | onlyRight r => simp [Wing.segments, declaredSegs] at hseg

theorem symmetricChain_of {nm : String} {pos : Option V3} {ops : List PlaneOp} {b : ℕ}
    (h : ∀ c, Relation.ReflTransGen (ConnectedBy ops) b c → CreatedTwoSided ops c) : SymmetricChain (built nm pos ops) b :=
  fun c hc => created_both (h c ((attached_iff _ _ _ _ _).1 hc))

/-- **C04.** On every plane built through the API whose own position is on the x-z plane: take a wing that was added for both sides without
lateral displacement and is connected to the plane directly or through such wings.  It has a left and a right segment, and the tips of
the left one are the mirror images of the tips of the right one (outer with outer, inner with inner). -/
theorem C04_mirror (nm : String) (pos : Option V3) (ops : List PlaneOp) (hpos : (pos.getD 0).y = 0)
    (b : ℕ) (hsym : ∀ c, Relation.ReflTransGen (ConnectedBy ops) b c → CreatedTwoSided ops c) :
    ∃ l r, (built nm pos ops).heap[b]? = some (.both l r) ∧
      (built nm pos ops).segPosition l .leftTip = mirPos ((built nm pos ops).segPosition r .rightTip) ∧
      (built nm pos ops).segPosition l .rightTip = mirPos ((built nm pos ops).segPosition r .leftTip) := by
  obtain ⟨l, r, hb, _⟩ := created_both (nm := nm) (pos := pos) (hsym b .refl)
  exact ⟨l, r, hb, mirror_chain nm pos ops (by rintro v rfl; exact hpos) b l r hb (symmetricChain_of hsym)⟩

/-- wings whose parents are known are connected -/
theorem allConnected_of {nm : String} {pos : Option V3} {ops : List PlaneOp} (h : ParentsAdded ops) :
    AllConnected (built nm pos ops) := by
  intro b w s hb hs hnone
  have hlt : b < wingsCreated ops := by
    rw [← built_length nm pos ops]; exact (List.getElem?_eq_some_iff.1 hb).1
  obtain ⟨pre, name, parent, location, side, d, post, rfl, hv, rfl⟩ := created_by hlt
  obtain ⟨w', hw', _, hT⟩ := wing_target nm pos pre post name parent location side d hv
  rw [hb] at hw'
  obtain rfl := Option.some.inj hw'
  have hT := hT s hs
  have hok : ∃ t, t ≠ Parent.none ∧ targetOf (built nm pos (pre ++ [.addWing name parent location side d])).wings parent = .ok t := by
    by_cases hp : parent = none ∨ parent = some ""
    · exact ⟨.plane, by simp, by rcases hp with rfl | rfl <;> rfl⟩
    · push Not at hp
      obtain ⟨q, rfl⟩ := Option.ne_none_iff_exists'.1 hp.1
      have hq : q ≠ "" := fun e => hp.2 (by rw [e])
      obtain ⟨c, hc⟩ := h pre name q location side d post rfl hv hq
      exact ⟨.wing c, by simp, (targetOf_wing _ _ c).2 ⟨q, rfl, hq, (names_iff nm pos _ _ _).2 hc⟩⟩
  obtain ⟨t, ht, ht'⟩ := hok
  rw [ht'] at hT
  exact ht (hT.1 ▸ hnone)

/-- the winglets are connected to the main wing; nothing else is connected -/
example : ConnectedBy tipOps 1 0 ∧ ¬ ConnectedBy tipOps 0 1 := by
  rw [← parentOf_iff "p" none, ← parentOf_iff "p" none]
  refine ⟨⟨_, _, rfl, List.mem_cons_self, rfl⟩, fun h => ?_⟩
  have := attached_le (built_inv _ _ _) (.single h)
  omega

/-- the hypotheses of `C02_root` hold for the winglets -/
example : Names tipOps "Main" 0 ∧ wingsCreated (tipOps.take 1) = 1 := by
  refine ⟨(names_iff "p" none _ _ _).1 rfl, rfl⟩

/-- `C04_mirror` applies to the winglets -/
example (c : ℕ) (h : Relation.ReflTransGen (ConnectedBy tipOps) 1 c) : CreatedTwoSided tipOps c := by
  have := attached_le (built_inv "p" none tipOps) ((attached_iff _ _ _ _ _).2 h)
  rcases Nat.le_one_iff_eq_zero_or_eq_one.1 this with rfl | rfl
  · exact ⟨[], _, _, _, _, _, rfl, rfl, rfl⟩
  · exact ⟨tipOps.take 1, _, _, _, _, [], rfl, rfl, rfl⟩

end Verif
