import Verif.Thm.WingCalls
import Verif.Thm.GeometryPos

/-!
# Span, sweep and dihedral of a wing (C95)
-/

namespace Verif
open V3

/-- position of the point a segment hangs on -/
theorem segPosition_split (p : Plane) (s : Seg) : ∃ base : Except PyErr V3, ∀ t,
    p.segPosition s t = match base with
      | .error e => .error e
      | .ok v => addOff (s.tipOffset t) v := by
  refine ⟨match connTarget p s with
      | .error e => .error e
      | .ok none => .ok (basePos p s)
      | .ok (some q) => segPos p p.heap.length q.1 q.2, fun t => ?_⟩
  unfold Plane.segPosition
  rw [segPos_succ]
  cases connTarget p s with
  | error e => rfl
  | ok o => cases o <;> rfl

/-- **C95.** However the wing is attached and whatever is called before and afterwards: seen from the root, the tip of each
segment of a wing added with semispan `b`, sweep `Λ` and dihedral `Γ` (degrees) lies `b tan Λ` aft, `b cos Γ` outboard and
`b sin Γ` up (the axes point forward, to the right and down). -/
theorem C95_tip (nm : String) (pos : Option V3) (pre post : List PlaneOp) (name : String) (parent : Option String)
    (location side : String) (d : WingDims) (hs : ValidSide side) (b sweep dihedral : ℝ)
    (hb : b = d.semispan.getD 4) (hsw : sweep = d.sweep.getD 0 * Real.pi / 180)
    (hdi : dihedral = d.dihedral.getD 0 * Real.pi / 180) :
    ∃ w, (built nm pos (pre ++ .addWing name parent location side d :: post)).heap[wingsCreated pre]? = some w ∧
      ∀ s ∈ w.segments, ∀ left right : V3,
        (built nm pos (pre ++ .addWing name parent location side d :: post)).segPosition s .leftTip = .ok left →
        (built nm pos (pre ++ .addWing name parent location side d :: post)).segPosition s .rightTip = .ok right →
        (s.side = .right → right - left =
          ⟨-(b * Real.tan sweep), b * Real.cos dihedral, -(b * Real.sin dihedral)⟩) ∧
        (s.side = .left → left - right =
          ⟨-(b * Real.tan sweep), -(b * Real.cos dihedral), -(b * Real.sin dihedral)⟩) := by
  obtain ⟨w, hw, _, hsays⟩ := C92_dimensions nm pos pre post name parent location side d hs
  refine ⟨w, hw, fun s hsw' L R hL hR => ?_⟩
  have h := hsays s hsw'
  obtain ⟨base, hbase⟩ := segPosition_split (built nm pos (pre ++ .addWing name parent location side d :: post)) s
  rw [hbase] at hL hR
  cases base with
  | error e => simp at hL
  | ok v =>
    simp only [Seg.tipOffset, h.span, h.sweep, h.dihedral, ← hb, ← hsw, ← hdi] at hL hR
    constructor <;> intro hside <;> simp only [hside] at hL hR
    all_goals
      by_cases hc : Real.cos sweep = 0
      · simp [hc, addOff] at hL hR
      · simp only [hc, if_false, addOff, Except.ok.injEq] at hL hR
        subst hL hR
        rw [Real.tan_eq_sin_div_cos]
        ext <;> simp <;> ring

/-- **C95, root.** The root of a wing that is not connected to another wing is the position of the aircraft plus the
given position, with `yoffset` pointing outboard. -/
theorem C95_root (nm : String) (pos : Option V3) (pre post : List PlaneOp) (name : String) (parent : Option String)
    (location side : String) (d : WingDims) (hs : ValidSide side) (hp : parent = none ∨ parent = some "") :
    ∃ w, (built nm pos (pre ++ .addWing name parent location side d :: post)).heap[wingsCreated pre]? = some w ∧
      ∀ s ∈ w.segments,
        (s.side = .right → (built nm pos (pre ++ .addWing name parent location side d :: post)).segPosition s .leftTip =
          .ok (pos.getD 0 + d.position.getD 0 + ⟨0, d.yoffset.getD 0, 0⟩)) ∧
        (s.side = .left → (built nm pos (pre ++ .addWing name parent location side d :: post)).segPosition s .rightTip =
          .ok (pos.getD 0 + d.position.getD 0 - ⟨0, d.yoffset.getD 0, 0⟩)) := by
  obtain ⟨w, hw, _, hsays⟩ := C92_dimensions nm pos pre post name parent location side d hs
  have hpar : ∃ w', (built nm pos (pre ++ .addWing name parent location side d :: post)).heap[wingsCreated pre]? = some w' ∧
      ∀ s ∈ w'.segments, s.parent = .plane := by
    rw [show pre ++ PlaneOp.addWing name parent location side d :: post =
      (pre ++ [.addWing name parent location side d]) ++ post by simp, built_split]
    refine heap_keeps (P := fun w => ∀ s ∈ w.segments, s.parent = .plane) post ?_ ?_
    · intro op _
      cases op with
      | airfoil i name' e props =>
        intro _ a _ w hP s hsm
        obtain ⟨s0, hs0, rfl⟩ := mem_segments_mapSegs hsm
        have : (s0.setAirfoil e a).parent = s0.parent := by unfold Seg.setAirfoil; split_ifs <;> rfl
        rw [this]; exact hP s0 hs0
      | controlSurface i props =>
        intro _ c _ w hP s hsm
        obtain ⟨s0, hs0, rfl⟩ := mem_segments_mapSegs hsm
        exact hP s0 hs0
      | _ => trivial
    · have hmk : ∃ w, mkWing name side d = .ok w := by rcases hs with rfl | rfl | rfl <;> exact ⟨_, rfl⟩
      obtain ⟨w0, hw0⟩ := hmk
      have hlen : (built nm pos pre).heap.length = wingsCreated pre := by
        have := created_runOps pre (newPlane nm pos)
        rw [show (newPlane nm pos).heap.length = 0 from rfl, zero_add] at this
        exact this
      have ht : targetOf (dictSet (built nm pos pre).wings name (built nm pos pre).heap.length) parent = .ok .plane := by
        rcases hp with rfl | rfl <;> rfl
      refine ⟨w0.mapSegs (·.connectTo .plane location), ?_, ?_⟩
      · rw [built_split]
        simp only [runOps, List.foldl_cons, List.foldl_nil, PlaneOp.run, addWing_eq, hw0, ht]
        simp [← hlen]
      · intro s hsm
        obtain ⟨s0, _, rfl⟩ := mem_segments_mapSegs hsm
        rfl
  obtain ⟨w', hw', hpl⟩ := hpar
  rw [hw] at hw'
  obtain rfl := Option.some.inj hw'
  refine ⟨w, hw, fun s hsm => ?_⟩
  have hpos : (built nm pos (pre ++ .addWing name parent location side d :: post)).getPosition = pos.getD 0 := by
    rw [Plane.getPosition, built_position]
  have h := hsays s hsm
  generalize built nm pos (pre ++ .addWing name parent location side d :: post) = p at *
  have hseg : ∀ t, p.segPosition s t = addOff (s.tipOffset t) (pos.getD 0) := by
    intro t
    unfold Plane.segPosition
    rw [segPos_succ]
    simp only [connTarget, basePos, hpl s hsm, hpos]
  rw [hseg, hseg]
  constructor <;> intro hside <;> simp only [Seg.tipOffset, hside, addOff, h.dpos, h.yoffset, Except.ok.injEq] <;>
    ext <;> simp <;> ring

/-- **C95, span.** The distance between root and tip in the front view is the semispan, whatever the dihedral. -/
theorem C95_span (nm : String) (pos : Option V3) (pre post : List PlaneOp) (name : String) (parent : Option String)
    (location side : String) (d : WingDims) (hs : ValidSide side) :
    ∃ w, (built nm pos (pre ++ .addWing name parent location side d :: post)).heap[wingsCreated pre]? = some w ∧
      ∀ s ∈ w.segments, ∀ left right : V3,
        (built nm pos (pre ++ .addWing name parent location side d :: post)).segPosition s .leftTip = .ok left →
        (built nm pos (pre ++ .addWing name parent location side d :: post)).segPosition s .rightTip = .ok right →
        (right.y - left.y) ^ 2 + (right.z - left.z) ^ 2 = d.semispan.getD 4 ^ 2 := by
  obtain ⟨w, hw, h⟩ := C95_tip nm pos pre post name parent location side d hs _ _ _ rfl rfl rfl
  refine ⟨w, hw, fun s hsm L R hL hR => ?_⟩
  obtain ⟨h1, h2⟩ := h s hsm L R hL hR
  have key := Real.sin_sq_add_cos_sq (d.dihedral.getD 0 * Real.pi / 180)
  cases hside : s.side with
  | right =>
    have e := h1 hside
    have ey := congrArg V3.y e
    have ez := congrArg V3.z e
    simp only [V3.sub_y, V3.sub_z] at ey ez
    rw [ey, ez]
    linear_combination d.semispan.getD 4 ^ 2 * key
  | left =>
    have e := h2 hside
    have ey := congrArg V3.y e
    have ez := congrArg V3.z e
    simp only [V3.sub_y, V3.sub_z] at ey ez
    have : (R.y - L.y) ^ 2 + (R.z - L.z) ^ 2 = (L.y - R.y) ^ 2 + (L.z - R.z) ^ 2 := by ring
    rw [this, ey, ez]
    linear_combination d.semispan.getD 4 ^ 2 * key

/-! ### Non-vacuity: a swept wing with its root behind the nose, built after another wing -/

/-- the calls before -/
def sweptPre : List PlaneOp := [.addWing "Tail" none "" "both" {}]

/-- dimensions of the swept wing -/
noncomputable def sweptDims : WingDims := { position := some ⟨-2, 0, 1⟩, yoffset := some (1 / 2), semispan := some 6, sweep := some 45 }

example : ∃ w s, (built "jet" none (sweptPre ++ .addWing "Main" none "" "right" sweptDims :: [])).heap[1]? = some w ∧
    s ∈ w.segments ∧ s.side = .right ∧
    (built "jet" none (sweptPre ++ .addWing "Main" none "" "right" sweptDims :: [])).segPosition s .leftTip =
      .ok ⟨-2, 1 / 2, 1⟩ ∧
    (built "jet" none (sweptPre ++ .addWing "Main" none "" "right" sweptDims :: [])).segPosition s .rightTip =
      .ok ⟨-8, 13 / 2, 1⟩ := by
  obtain ⟨w, hw, hroot⟩ := C95_root "jet" none sweptPre [] "Main" none "" "right" sweptDims (by simp [ValidSide]) (.inl rfl)
  obtain ⟨w', hw', htip⟩ := C95_tip "jet" none sweptPre [] "Main" none "" "right" sweptDims (by simp [ValidSide])
    6 (Real.pi / 4) 0 rfl (by simp [sweptDims]; ring) (by simp [sweptDims])
  rw [hw] at hw'
  obtain rfl := Option.some.inj hw'
  have hw1 : wingsCreated sweptPre = 1 := by simp [wingsCreated, addCalls, sweptPre, ValidSide]
  rw [hw1] at hw
  have hcon : (built "jet" none (sweptPre ++ .addWing "Main" none "" "right" sweptDims :: [])).heap[1]? =
      some (.onlyRight ((mkSeg "right_Main" .right sweptDims).connectTo .plane "")) := by
    simp [built, runOps, sweptPre, PlaneOp.run, addWing_eq, newPlane, mkWing, targetOf, Wing.mapSegs]
  have hww := hw.symm.trans hcon
  obtain rfl := Option.some.inj hww
  refine ⟨_, _, hw, List.mem_singleton_self _, rfl, ?_, ?_⟩
  · rw [(hroot _ (List.mem_singleton_self _)).1 rfl]
    congr 1
    ext <;> norm_num [sweptDims]
  · obtain ⟨base, hb⟩ := segPosition_split
      (built "jet" none (sweptPre ++ .addWing "Main" none "" "right" sweptDims :: []))
      ((mkSeg "right_Main" .right sweptDims).connectTo .plane "")
    have hl := (hroot _ (List.mem_singleton_self _)).1 rfl
    have : ∃ R, (built "jet" none (sweptPre ++ .addWing "Main" none "" "right" sweptDims :: [])).segPosition
        ((mkSeg "right_Main" .right sweptDims).connectTo .plane "") .rightTip = .ok R := by
      rw [hb]
      rw [hb] at hl
      cases base with
      | error e => simp at hl
      | ok v =>
        have hc : Real.cos (45 * Real.pi / 180) ≠ 0 := by
          rw [show (45 : ℝ) * Real.pi / 180 = Real.pi / 4 by ring, Real.cos_pi_div_four]
          positivity
        simp [Seg.tipOffset, Seg.connectTo, mkSeg, sweptDims, addOff, hc]
    obtain ⟨R, hR⟩ := this
    have := (htip _ (List.mem_singleton_self _) _ R hl hR).1 rfl
    rw [hR]
    congr 1
    rw [Real.tan_pi_div_four] at this
    have e : R = (R - (none.getD (0 : V3) + sweptDims.position.getD 0 + ⟨0, sweptDims.yoffset.getD 0, 0⟩)) +
        (none.getD (0 : V3) + sweptDims.position.getD 0 + ⟨0, sweptDims.yoffset.getD 0, 0⟩) := by ext <;> simp
    rw [e, this]
    ext <;> norm_num [sweptDims]

end Verif
