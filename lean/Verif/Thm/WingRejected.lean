import Verif.Thm.WingCalls
import Verif.Thm.GeometryPos
import Verif.Thm.FlapSection
import Verif.Examples.UnitPlane

/-!
# Gap seals declared through the API, and rejected calls (C93, C94)
-/

namespace Verif
open V3

/-! ### C93 -/

/-- **C93 for the keyword the code reads.** After `control_surface(..., sealed=b)` on a wing, not followed by another
successful call, every section it covers has the effectiveness of a sealed surface if `b`, and 0.8 times that if not. -/
theorem C93_sealed_partial (nm : String) (pos : Option V3) (pre post : List PlaneOp) (id : ℕ) (props : CtrlSurfProps)
    (b : Bool) (hb : props.sealed = some b) (hc : props.Complete) (hid : id < wingsCreated pre)
    (hpost : ∀ op ∈ post, ¬ SetsControl id op) (cosine : Bool) (g : Grid)
    (hg : mkGrid (built nm pos (pre ++ .controlSurface id props :: post)) cosine = .ok g) :
    ∃ w, (built nm pos (pre ++ .controlSurface id props :: post)).heap[id]? = some w ∧
      ∀ s ∈ w.segments, ∀ (k i : ℕ) (x : GridSec),
        SectionOf (built nm pos (pre ++ .controlSurface id props :: post)) g k s i x → Covered s x →
        x.flapEff = (if b then 1 else 0.8) * (hingeEfficiency true (s.cs.chordFraction (rootStation s.side x.sp)) *
          thinFlapEffectiveness (s.cs.chordFraction (rootStation s.side x.sp))) := by
  obtain ⟨w, hw, hs⟩ := C92_control nm pos pre post id props hc hid hpost
  refine ⟨w, hw, fun s hsw k i x hx hcov => ?_⟩
  have h1 := (hs s hsw).sealed
  obtain ⟨_, _, _, h2, _⟩ := (section_flap hg k s i x hx).2 hcov
  rw [h2, h1, hb, ← etaH_eq, ← epsF_eq]
  cases b with
  | true => simp
  | false => simpa using eff_range.1 _

/-- **C93: the documented keyword has no effect.** Whatever is passed as `is_sealed`, the aircraft is the same. -/
theorem C93_ignored (nm : String) (pos : Option V3) (pre post : List PlaneOp) (id : ℕ) (props : CtrlSurfProps)
    (a b : Bool) :
    built nm pos (pre ++ .controlSurface id { props with isSealed := some a } :: post) =
      built nm pos (pre ++ .controlSurface id { props with isSealed := some b } :: post) := by
  have h : mkCtrlSurf { props with isSealed := some a } = mkCtrlSurf { props with isSealed := some b } := by
    unfold mkCtrlSurf
    rw [if_pos (by simp [CtrlSurfProps.truthy]), if_pos (by simp [CtrlSurfProps.truthy])]
  simp only [built, runOps, List.foldl_append, List.foldl_cons, PlaneOp.run, Plane.wingCtrl, h]

/-- **C93 fails.** There are an aircraft and a call `control_surface(..., is_sealed=False)` — the keyword named in the
documentation — after which the covered sections have the full effectiveness of a sealed surface. -/
theorem C93_refuted : ∃ (pre post : List PlaneOp) (props : CtrlSurfProps) (g : Grid),
    props.isSealed = some false ∧ props.Complete ∧
    mkGrid (built "unit" none (pre ++ .controlSurface 0 props :: post)) true = .ok g ∧
    ∃ x ∈ g.data, x.flapEff = hingeEfficiency true (1/4) * thinFlapEffectiveness (1/4) ∧
      x.flapEff ≠ 0.8 * (hingeEfficiency true (1/4) * thinFlapEffectiveness (1/4)) := by
  simp_rw [← etaH_eq, ← epsF_eq]
  refine ⟨[.addWing "w" none "tip" "both" { semispan := some 1, grid := some 1 },
     .airfoil 0 "af" "both" { al0 := some (-1/20), cla := some 6, clMax := some (7/5), cml0 := some (-1/20),
                              cma := some (-1/10), cd0 := some (1/100), cd1 := some 0, cd2 := some (1/100) }],
    [.cgLocation (some 1) none none],
    { percentSpan := some (0, 1), percentChord := some (.single (1/4))
      mix := some { aileron := some 1, elevator := some 1 }, isSealed := some false }, ?_⟩
  obtain ⟨g, hg, a, b, hd, ha, _, _⟩ := unit_grid true
  refine ⟨g, rfl, .inl ⟨rfl, rfl, rfl⟩, hg, a, by rw [hd]; simp, ?_⟩
  have he : a.flapEff = etaH true (1/4) * epsF (1/4) := by rw [ha]; rfl
  refine ⟨he, ?_⟩
  rw [he]
  have h1 : 0 < etaH true (1/4) := lt_of_lt_of_le etaH_zero_pos (etaH_le_of_le true (by norm_num))
  have h2 : 0 < epsF (1/4) := by
    have := epsF_lt (a := 0) (b := 1/4) le_rfl (by norm_num) (by norm_num)
    rwa [epsF_zero] at this
  have h3 := mul_pos h1 h2
  intro h
  norm_num at h h3
  linarith

-- `C93_sealed_partial`: a call with `sealed=False` on a wing that exists
example : ∃ props : CtrlSurfProps, props.sealed = some false ∧ props.Complete ∧
    0 < wingsCreated [.addWing "w" none "tip" "both" {}] :=
  ⟨{ percentSpan := some (0, 1), percentChord := some (.single (1/4)), mix := some {}, sealed := some false }, rfl,
    .inl ⟨rfl, rfl, rfl⟩, by decide⟩

/-! ### C94 -/

/-- **C94 for the calls that check first.** A call of `add_wing` with an invalid side, and a call of `airfoil` or
`control_surface` with incomplete keywords, raises an exception and changes nothing. -/
theorem C94_rejected_partial (p : Plane) :
    (∀ name parent location side d, ¬ ValidSide side →
      p.addWing name parent location side d = (.error .runtime, p)) ∧
    (∀ id name e props, ¬ AirfoilProps.Complete props → ∃ er, p.wingAirfoil id name e props = (.error er, p)) ∧
    (∀ id props, ¬ CtrlSurfProps.Complete props → ∃ er, p.wingCtrl id props = (.error er, p)) := by
  refine ⟨?_, ?_, ?_⟩
  · intro name parent location side d hs
    unfold ValidSide at hs
    push Not at hs
    rw [addWing_eq]
    simp [mkWing, hs.1, hs.2.1, hs.2.2]
  · intro id name e props hc
    obtain ⟨er, her⟩ := (mkAirfoil_iff name props).2 hc
    exact ⟨er, by simp only [Plane.wingAirfoil, her]⟩
  · intro id props hc
    obtain ⟨er, her⟩ := (mkCtrlSurf_iff props).2 hc
    exact ⟨er, by simp only [Plane.wingCtrl, her]⟩

example : ¬ ValidSide "centre" ∧ ¬ AirfoilProps.Complete { al0 := some 0 } ∧
    ¬ CtrlSurfProps.Complete { sealed := some true } := by
  refine ⟨by decide, ?_, ?_⟩
  · rintro (⟨_, h, _⟩ | ⟨_, h, _⟩)
    · simp at h
    · simp at h
  · rintro (⟨h, _⟩ | ⟨_, _, _, h, _⟩)
    · simp at h
    · simp at h

/-- **C94: what an unknown parent name does.** `add_wing` with a valid side and a parent name under which no wing is
stored raises `KeyError`, but the new wing has been stored under its name (in place of an earlier wing of that name).  It
is not connected to anything: the position of the aircraft is not added to its own. -/
theorem C94_unknown_parent (nm : String) (pos : Option V3) (ops : List PlaneOp) (name q location side : String)
    (d : WingDims) (hs : ValidSide side) (hq : q ≠ "") (hqn : q ≠ name)
    (hun : dictGet (built nm pos ops).wings q = none) :
    ∃ p', (built nm pos ops).addWing name (some q) location side d = (.error .key, p') ∧
      dictGet p'.wings name = some (wingsCreated ops) ∧
      ∃ w, p'.heap[wingsCreated ops]? = some w ∧ w ∈ p'.wingList ∧
        ∀ s ∈ w.segments, ∀ t, p'.segPosition s t = addOff (s.tipOffset t) 0 := by
  have hw : ∃ w, mkWing name side d = .ok w := by rcases hs with rfl | rfl | rfl <;> exact ⟨_, rfl⟩
  obtain ⟨w, hw⟩ := hw
  have hlen : (built nm pos ops).heap.length = wingsCreated ops := by
    have := created_runOps ops (newPlane nm pos)
    rw [show (newPlane nm pos).heap.length = 0 from rfl, zero_add] at this
    exact this
  have ht : targetOf (dictSet (built nm pos ops).wings name (built nm pos ops).heap.length) (some q) = .error .key := by
    unfold targetOf
    simp only [hq, dictGet_dictSet, if_neg hqn, hun]
  have hget : dictGet (dictSet (built nm pos ops).wings name (built nm pos ops).heap.length) name =
      some (wingsCreated ops) := by rw [dictGet_dictSet, if_pos rfl, hlen]
  refine ⟨_, by rw [addWing_eq, hw]; simp only [ht]; rfl, hget, w, by simp [← hlen], ?_, ?_⟩
  · simp only [Plane.wingList, List.mem_filterMap]
    exact ⟨(name, wingsCreated ops), dictGet_mem hget, by simp [← hlen]⟩
  · intro s hsw t
    have hpar : s.parent = .none := by
      rcases hs with rfl | rfl | rfl <;> (have := (Except.ok.inj hw).symm; subst this)
      · rcases (by simpa [Wing.segments] using hsw) with rfl | rfl <;> rfl
      · obtain rfl := (by simpa [Wing.segments] using hsw)
        rfl
      · obtain rfl := (by simpa [Wing.segments] using hsw)
        rfl
    unfold Plane.segPosition
    rw [segPos_succ]
    simp only [connTarget, basePos, hpar]

-- a misspelt parent name
example : ValidSide "both" ∧ "Mian" ≠ "" ∧ "Mian" ≠ "Winglet" ∧
    dictGet (built "p" none [.addWing "Main" none "tip" "both" {}]).wings "Mian" = none :=
  ⟨.inl rfl, by decide, by decide, rfl⟩

/-- **C94 fails.** A call of `add_wing` can raise an exception and yet change the aircraft: here 80 sections are added. -/
theorem C94_refuted : ∃ (ops : List PlaneOp) (name q : String) (d : WingDims) (e : PyErr),
    ((built "p" (some ⟨10, 0, 0⟩) ops).addWing name (some q) "tip" "both" d).1 = .error e ∧
    (built "p" (some ⟨10, 0, 0⟩) ops).numSections = 80 ∧
    ((built "p" (some ⟨10, 0, 0⟩) ops).addWing name (some q) "tip" "both" d).2.numSections = 160 :=
  ⟨[.addWing "Main" none "tip" "both" {}], "Winglet", "Mian", {}, .key, rfl, rfl, rfl⟩

end Verif
