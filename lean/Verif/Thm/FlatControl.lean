import Verif.Spec.FlatControl
import Verif.Thm.DeadControl

/-!
# Control surfaces of zero chord (C150)
-/

namespace Verif
open V3

/-! ### The grid -/

/-- the control does not move the surface, or the surface has no chord -/
def CtrlSurf.Harmless (c : CtrlSurf) (x : Control) : Prop := (c.entry x).getD 0 = 0 ∨ (c.chordRoot = 0 ∧ c.chordTip = 0)

/-- all control surfaces of the aircraft are so -/
def Plane.Harmless (p : Plane) (x : Control) : Prop := ∀ w ∈ p.heap, ∀ s ∈ w.segments, s.cs.Harmless x

theorem Plane.Harmless.modify {p : Plane} {x : Control} (h : p.Harmless x) {f : Seg → Seg} (hf : ∀ s, s.cs.Harmless x → (f s).cs.Harmless x)
    (id : ℕ) : ({ p with heap := p.heap.modify id (·.mapSegs f) } : Plane).Harmless x := by
  intro w hw s hs
  obtain ⟨k, hk⟩ := List.mem_iff_getElem?.1 hw
  simp only [List.getElem?_modify] at hk
  cases hq : p.heap[k]? with
  | none => rw [hq] at hk; simp at hk
  | some w0 =>
    rw [hq] at hk
    simp only [Option.map_eq_map, Option.map_some, Option.some.injEq] at hk
    have h0 := h w0 (List.mem_of_getElem? hq)
    split at hk
    · subst hk
      obtain ⟨s0, hs0, rfl⟩ := mem_segments_mapSegs hs
      exact hf _ (h0 s0 hs0)
    · subst hk; exact h0 s hs

theorem mkCtrlSurf_harmless {props : CtrlSurfProps} {c : CtrlSurf} {x : Control} (h : mkCtrlSurf props = .ok c)
    (hm : ∀ m ch, props.mix = some m → props.percentChord = some ch → (m.entry x).getD 0 = 0 ∨ ch.isZero) : c.Harmless x := by
  unfold mkCtrlSurf at h
  split_ifs at h
  · cases h1 : props.percentSpan with
    | none => rw [h1] at h; cases h
    | some sp =>
      cases h2 : props.percentChord with
      | none => rw [h1, h2] at h; cases h
      | some ch =>
        cases h3 : props.mix with
        | none => rw [h1, h2, h3] at h; cases h
        | some m =>
          rw [h1, h2, h3] at h
          cases h
          rcases hm m ch h3 h2 with h | h
          · left; cases x <;> exact h
          · right
            cases ch with
            | pair a b => exact h
            | single c => exact ⟨h, h⟩
  · cases h
    left
    cases x <;> rfl

theorem Plane.Harmless.run {p : Plane} {x : Control} (h : p.Harmless x) {op : PlaneOp} (ho : MovesNoChord [op] x) : (op.run p).Harmless x := by
  cases op with
  | addWing name parent location side d =>
    simp only [PlaneOp.run, addWing_eq]
    cases hw : mkWing name side d with
    | error e => exact h
    | ok w =>
      have h0 := mkWing_dead hw x
      have key : ∀ w' : Wing, (∀ s ∈ w'.segments, s.cs.Harmless x) → ∀ v ∈ p.heap ++ [w'], ∀ s ∈ v.segments, s.cs.Harmless x := by
        intro w' hw' v hv
        rcases List.mem_append.1 hv with hv | hv
        · exact h v hv
        · rw [List.mem_singleton.1 hv]; exact hw'
      cases targetOf (dictSet p.wings name p.heap.length) parent with
      | error e => exact key w fun s hs => .inl (h0 s hs)
      | ok t =>
        refine key _ fun s hs => ?_
        obtain ⟨s0, hs0, rfl⟩ := mem_segments_mapSegs hs
        exact .inl (h0 s0 hs0)
  | airfoil id name e props =>
    simp only [PlaneOp.run, Plane.wingAirfoil]
    cases mkAirfoil name props with
    | error e => exact h
    | ok a =>
      refine h.modify (fun s hs => ?_) id
      have : (s.setAirfoil e a).cs = s.cs := by unfold Seg.setAirfoil; split_ifs <;> rfl
      rw [this]
      exact hs
  | controlSurface id props =>
    simp only [PlaneOp.run, Plane.wingCtrl]
    cases hc : mkCtrlSurf props with
    | error e => exact h
    | ok c => exact h.modify (fun s _ => mkCtrlSurf_harmless hc fun m ch hm hch => ho id props m ch (by simp) hm hch) id
  | addProp name d => exact h
  | propAirfoil name af props =>
    simp only [PlaneOp.run, Plane.propAirfoil]
    cases mkAirfoil af props with
    | error er => exact h
    | ok a => simp only; cases dictGet p.props name <;> exact h
  | cgLocation x y z => exact h
  | setRefLengths a b => exact h

theorem built_harmless (nm : String) (pos : Option V3) {ops : List PlaneOp} {x : Control} (h : MovesNoChord ops x) : (built nm pos ops).Harmless x := by
  unfold built
  have h0 : (newPlane nm pos).Harmless x := by intro w hw; simp [newPlane] at hw
  generalize newPlane nm pos = p at h0
  induction ops generalizing p with
  | nil => exact h0
  | cons op t ih =>
    refine ih (fun id props m ch hm => h id props m ch (List.mem_cons_of_mem _ hm)) _ (h0.run fun id props m ch hm => ?_)
    rw [List.mem_singleton] at hm
    exact h id props m ch (by rw [hm]; simp)

theorem cmD_zero : cmD 0 = 0 := by
  unfold cmD
  rw [show (2 * 0 - 1 : ℝ) = -1 by norm_num, Real.arccos_neg_one, Real.sin_pi, Real.sin_two_pi]
  norm_num

open Classical in
theorem segSecs_harmless {p : Plane} {c : Bool} {s : Seg} {x : Control} (hs : s.cs.Harmless x) {y : GridSec} (hy : y ∈ segSecs p c s) :
    y.toSection.share x = 0 ∨ (y.flapEff = 0 ∧ y.cmd = 0) := by
  rcases hs with hs | hs
  · exact .inl (segSecs_dead hs hy)
  right
  unfold segSecs at hy
  cases hd : Verif.segData p c s with
  | error e => rw [hd] at hy; cases hy
  | ok v =>
    rw [hd] at hy
    simp only at hy
    obtain ⟨l, r, -, -, -, -, -, -, rfl⟩ := segData_ok hd
    obtain ⟨k, -, rfl⟩ := List.mem_map.1 hy
    have hcf : ∀ z, s.flapChord z = 0 := by
      intro z
      unfold Seg.flapChord Seg.csChord leftRight
      cases s.side <;> simp only [hs.1, hs.2] <;> simp
    constructor
    · show (if s.covers (sCp c s.n k) then etaH s.cs.sealed (s.flapChord (sCp c s.n k)) * epsF (s.flapChord (sCp c s.n k)) else 0) = 0
      rw [hcf, epsF_zero, mul_zero, ite_self]
    · show (if s.covers (sCp c s.n k) then cmD (s.flapChord (sCp c s.n k)) else 0) = 0
      rw [hcf, cmD_zero, ite_self]

theorem grid_harmless {p : Plane} {c : Bool} {g : Grid} (hg : mkGrid p c = .ok g) {x : Control} (h : p.Harmless x) (cg : V3) (i) :
    ((g.geom cg).S i).share x = 0 ∨ (((g.geom cg).S i).flapEff = 0 ∧ ((g.geom cg).S i).cmd = 0) := by
  have hm : g.data.get i ∈ (p.segments.flatMap (segSecs p c)).map GridSec.withIc2 := by
    rw [← (mkGrid_segSecs hg).1]; exact List.getElem_mem _
  obtain ⟨y, hy, hyx⟩ := List.mem_map.1 hm
  obtain ⟨s, hs, hys⟩ := List.mem_flatMap.1 hy
  rw [segments_eq, List.mem_flatMap] at hs
  obtain ⟨w, hw, hs⟩ := hs
  have hw' : w ∈ p.heap := by
    simp only [Plane.wingList, List.mem_filterMap] at hw
    obtain ⟨a, -, ha⟩ := hw
    exact List.mem_of_getElem? ha
  have := segSecs_harmless (h w hw' s hs) hys
  show (g.data.get i).toSection.share x = 0 ∨ ((g.data.get i).toSection.flapEff = 0 ∧ (g.data.get i).toSection.cmd = 0)
  rw [← hyx]
  rcases this with h | h
  · left; cases x <;> exact h
  · exact .inr h

/-! ### The wing solver -/

section
variable {ι : Type}

/-- deflections that differ only where the surface has no effect on the lift and moment of the section -/
def Ctrl.SameLift (S : ι → Section) (C C' : Ctrl ι) : Prop :=
  ∀ i, (C'.delta i = C.delta i ∧ C'.eff i = C.eff i) ∨ ((S i).flapEff = 0 ∧ (S i).cmd = 0)

theorem Ctrl.SameLift.bVec {S : ι → Section} {C C' : Ctrl ι} (h : C.SameLift S C') (F : Flow ι) : bVec S F C' = Verif.bVec S F C := by
  funext i
  unfold Verif.bVec clRhs effFlap
  rcases h i with ⟨h1, h2⟩ | ⟨h1, -⟩
  · rw [h1, h2]
  · simp only [h1, zero_mul]

theorem Ctrl.SameLift.secCm {S : ι → Section} {C C' : Ctrl ι} (h : C.SameLift S C') (al : ι → ℝ) : secCm S C' al = Verif.secCm S C al := by
  funext i
  unfold Verif.secCm
  rcases h i with ⟨h1, -⟩ | ⟨-, h1⟩
  · rw [h1]
  · rw [h1, mul_zero, mul_zero]

theorem Ctrl.SameLift.sol [Fintype ι] [DecidableEq ι] {S : ι → Section} {C C' : Ctrl ι} (h : C.SameLift S C') (cg : V3) (F : Flow ι) (γ : ι → ℝ) :
    SameButDrag (solOf cg S F C γ) (solOf cg S F C' γ) := by
  have hm : secMoment cg S F C' γ (vInd S F γ) = secMoment cg S F C γ (vInd S F γ) := by
    funext i
    unfold secMoment
    rw [h.secCm]
  refine ⟨rfl, rfl, rfl, rfl, hm, rfl, h.secCm _, ?_⟩
  show mkLoads F.u _ (∑ i, secMoment cg S F C' γ (vInd S F γ) i) = mkLoads F.u _ (∑ i, secMoment cg S F C γ (vInd S F γ) i)
  rw [hm]

theorem Ctrl.SameLift.solve [Fintype ι] [DecidableEq ι] {S : ι → Section} {C C' : Ctrl ι} (h : C.SameLift S C') (cg : V3) (F : Flow ι) :
    (∃ e, solveLinear cg S F C = .error e ∧ solveLinear cg S F C' = .error e) ∨
      ∃ γ, solveLinear cg S F C = .ok (solOf cg S F C γ) ∧ solveLinear cg S F C' = .ok (solOf cg S F C' γ) := by
  unfold solveLinear
  simp only
  rw [h.bVec]
  split_ifs
  all_goals first | exact .inl ⟨_, rfl, rfl⟩ | exact .inr ⟨_, rfl, rfl⟩

end

theorem processCtrl_sameLift {n : ℕ} {G : LLGeom (Fin n)} {I : Control → Prop}
    (hI : ∀ x, I x → ∀ i, (G.S i).share x = 0 ∨ ((G.S i).flapEff = 0 ∧ (G.S i).cmd = 0)) {c c' : CtrlDict} (h : c.SameExcept I c') :
    (ctrlOf G c).SameLift G.S (ctrlOf G c') := by
  intro i
  by_cases hz : (G.S i).flapEff = 0 ∧ (G.S i).cmd = 0
  · exact .inr hz
  left
  have key : ∀ x, (c'.entry x).getD 0 * (G.S i).share x = (c.entry x).getD 0 * (G.S i).share x := by
    intro x
    by_cases hx : I x
    · rw [(hI x hx i).resolve_right hz, mul_zero, mul_zero]
    · rw [h.entry x hx]
  have kA := key .aileron
  have kE := key .elevator
  have kR := key .rudder
  have kF := key .flap
  simp only [CtrlDict.entry, Section.share] at kA kE kR kF
  have hd : (ctrlOf G c').delta i = (ctrlOf G c).delta i := by
    simp only [ctrlOf, kA, kE, kR, kF]
  refine ⟨hd, ?_⟩
  show deflEff ((ctrlOf G c').delta i) = deflEff ((ctrlOf G c).delta i)
  rw [hd]

/-- what two solves after each other's argument processing do -/
theorem llSolve_given_ctrl {n : ℕ} {G : LLGeom (Fin n)} (st : LLState (Fin n)) (a : Option (AeroDict (Fin n))) {c : CtrlDict} (hc : c.truthy = true) :
    (llSolve G st "linear" a (some c)).1 =
      match processAero G st a with
      | (.error e, _) => .error e
      | (.ok (), st1) => kern G ⟨st1.v, st1.u, st1.rho⟩ (ctrlOf G c) := by
  unfold llSolve
  rcases processAero G st a with ⟨e | _, st1⟩
  · rfl
  · simp only [processCtrl, hc, if_true, runLinear_eq]
    generalize hk : kern G _ _ = r
    have : r = kern G ⟨st1.v, st1.u, st1.rho⟩ (ctrlOf G c) := hk.symm
    rw [this]
    rcases kern G ⟨st1.v, st1.u, st1.rho⟩ (ctrlOf G c) with e | R
    · cases e <;> rfl
    · rfl

/-- the two solutions, for the same flow and circulations -/
theorem same_lift_core {nm : String} {pos : Option V3} {ops : List PlaneOp} {cosine : Bool} {g : Grid} {I : Control → Prop}
    (hg : mkGrid (built nm pos ops) cosine = .ok g) (hI : ∀ x, I x → MovesNoChord ops x) {c c' : CtrlDict} (hc : c.SameExcept I c')
    (cg : V3) (st : LLState (Fin g.data.length)) (a : Option (AeroDict (Fin g.data.length))) :
    (ctrlOf (g.geom cg) c).SameLift (g.geom cg).S (ctrlOf (g.geom cg) c') ∧
    ((∃ e, (llSolve (g.geom cg) st "linear" a (some c)).1 = .error e ∧ (llSolve (g.geom cg) st "linear" a (some c')).1 = .error e) ∨
    ∃ F γ, (llSolve (g.geom cg) st "linear" a (some c)).1 = .ok (solOf cg (g.geom cg).S F (ctrlOf (g.geom cg) c) γ) ∧
      (llSolve (g.geom cg) st "linear" a (some c')).1 = .ok (solOf cg (g.geom cg).S F (ctrlOf (g.geom cg) c') γ)) := by
  have hl := processCtrl_sameLift (G := g.geom cg) (fun x hx i => grid_harmless hg (built_harmless nm pos (hI x hx)) cg i) hc
  refine ⟨hl, ?_⟩
  rw [llSolve_given_ctrl st a hc.given, llSolve_given_ctrl st a hc.given']
  rcases processAero (g.geom cg) st a with ⟨e | _, st1⟩
  · exact .inl ⟨_, rfl, rfl⟩
  simp only [kern]
  rcases hv : st1.v with _ | v
  · exact .inl ⟨_, rfl, rfl⟩
  rcases hu : st1.u with _ | u
  · exact .inl ⟨_, rfl, rfl⟩
  simp only
  rcases hl.solve (g.geom cg).cg ⟨v, u, st1.rho⟩ with ⟨e, h1, h2⟩ | ⟨γ, h1, h2⟩
  · rw [h1, h2]
    exact .inl ⟨_, rfl, rfl⟩
  · rw [h1, h2]
    exact .inr ⟨_, _, rfl, rfl⟩

/-- **C150** (partial: of the results without the parasitic drag, see `C150_refuted`).  An aircraft is built by any calls, and the controls
in `I` move no control surfaces but such of zero chord.  For the wings of the aircraft, solved with any `aero_state`
after any history (`st`) for two `control_state`s that differ in controls in `I` only: they fail with the same exception, or both give
solutions with the same circulations, section lift and moment coefficients, inviscid forces and moments.  The section drag
coefficients differ by 0.002 for every degree of deflection, and the parasitic drag of a section is in proportion to its drag coefficient. -/
theorem C150_same_lift_partial {nm : String} {pos : Option V3} {ops : List PlaneOp} {cosine : Bool} {g : Grid} {I : Control → Prop}
    (hg : mkGrid (built nm pos ops) cosine = .ok g) (hI : ∀ x, I x → MovesNoChord ops x) {c c' : CtrlDict} (hc : c.SameExcept I c')
    (cg : V3) (st : LLState (Fin g.data.length)) (a : Option (AeroDict (Fin g.data.length))) :
    let G := g.geom cg
    (∀ e, (llSolve G st "linear" a (some c')).1 = .error e ↔ (llSolve G st "linear" a (some c)).1 = .error e) ∧
    ∀ R, (llSolve G st "linear" a (some c)).1 = .ok R → ∃ R', (llSolve G st "linear" a (some c')).1 = .ok R' ∧ SameButDrag R R' ∧
      ∀ i, R'.cd i - R.cd i = 0.002 * (|deflectionAt G c' i| - |deflectionAt G c i|) ∧ R.cd i • R'.fpar i = R'.cd i • R.fpar i := by
  intro G
  obtain ⟨hl, h⟩ := same_lift_core hg hI hc cg st a
  have hp : 0 < Real.pi := Real.pi_pos
  have habs : ∀ (k : CtrlDict) i, |(ctrlOf G k).delta i| = |deflectionAt G k i| * Real.pi / 180 := by
    intro k i
    show |deflectionAt G k i * Real.pi / 180| = _
    rw [abs_div, abs_mul, abs_of_pos hp, abs_of_pos (by norm_num : (0:ℝ) < 180)]
  rcases h with ⟨e, h1, h2⟩ | ⟨F, γ, h1, h2⟩
  · rw [h1, h2]
    exact ⟨fun _ => Iff.rfl, fun R h => by cases h⟩
  · rw [h1, h2]
    refine ⟨fun _ => by simp, fun R h => ?_⟩
    cases h
    refine ⟨_, rfl, hl.sol cg _ γ, fun i => ⟨?_, ?_⟩⟩
    · have e : ∀ k, (solOf cg G.S F (ctrlOf G k) γ).cd i = lerp (G.S i).sp
          ((G.S i).left.cd0 + (G.S i).left.cd1 * secCl G.S (alphas G.S (vInd G.S F γ)) i +
            (G.S i).left.cd2 * secCl G.S (alphas G.S (vInd G.S F γ)) i * secCl G.S (alphas G.S (vInd G.S F γ)) i)
          ((G.S i).right.cd0 + (G.S i).right.cd1 * secCl G.S (alphas G.S (vInd G.S F γ)) i +
            (G.S i).right.cd2 * secCl G.S (alphas G.S (vInd G.S F γ)) i * secCl G.S (alphas G.S (vInd G.S F γ)) i) +
          0.002 * |deflectionAt G k i| := by
        intro k
        show _ + 0.002 * |(ctrlOf G k).delta i| * 180 / Real.pi = _
        rw [habs]
        congr 1
        field_simp
      rw [e, e]
      ring
    · show secCd G.S (ctrlOf G c) (alphas G.S (vInd G.S F γ)) i • secDrag G.S F (ctrlOf G c') (vInd G.S F γ) i =
        secCd G.S (ctrlOf G c') (alphas G.S (vInd G.S F γ)) i • secDrag G.S F (ctrlOf G c) (vInd G.S F γ) i
      unfold secDrag
      simp only [smul_smul]
      congr 1
      ring

/-! ### A wing with elevons of zero chord -/

/-- the aircraft of `unitPlane`, its elevons with a `percent_chord` of 0 -/
noncomputable def hingeOps : List PlaneOp :=
  [.addWing "w" none "tip" "both" { semispan := some 1, grid := some 1 },
   .airfoil 0 "af" "both" { al0 := some (-1/20), cla := some 6, clMax := some (7/5), cml0 := some (-1/20),
                            cma := some (-1/10), cd0 := some (1/100), cd1 := some 0, cd2 := some (1/100) },
   .controlSurface 0 { percentSpan := some (0, 1), percentChord := some (.single 0),
                       mix := some { aileron := some 1, elevator := some 1 } },
   .cgLocation (some 1) none none]

/-- the aircraft -/
noncomputable def hinge : Plane := built "hinge" none hingeOps

/-- its wing segments -/
noncomputable def hingeSeg (side : Side) : Seg := { unitSeg side with cs := { unitCs with chordRoot := 0, chordTip := 0 } }

theorem hinge_heap : hinge.heap = [.both (hingeSeg .left) (hingeSeg .right)] := rfl
theorem hinge_segments : hinge.segments = [hingeSeg .left, hingeSeg .right] := rfl

theorem hinge_heap_cases (b : ℕ) (w : Wing) (h : hinge.heap[b]? = some w) : b = 0 ∧ w = .both (hingeSeg .left) (hingeSeg .right) := by
  rw [hinge_heap] at h
  match b with
  | 0 => simp at h; exact ⟨rfl, h.symm⟩
  | b + 1 => simp at h

theorem hinge_wellFormed : WellFormed hinge := by
  constructor
  · intro b w hb s hs a ha
    obtain ⟨rfl, rfl⟩ := hinge_heap_cases b w hb
    simp [Wing.segments] at hs; rcases hs with rfl | rfl <;> simp [hingeSeg, unitSeg] at ha
  · intro b w hb s hs
    obtain ⟨rfl, rfl⟩ := hinge_heap_cases b w hb
    simp [Wing.segments] at hs; rcases hs with rfl | rfl <;> simp [hingeSeg, unitSeg]
  all_goals
    intro s hs
    rw [hinge_segments] at hs
    simp at hs
    rcases hs with rfl | rfl <;> simp [hingeSeg, unitSeg, unitCs]

/-- a section of its grid -/
noncomputable def hingeSec (side : Side) : Section := { unitSec side with flapEff := 0, cmd := 0 }

theorem hinge_cg : hinge.cg = ⟨1, 0, 0⟩ := unit_cg

open Classical in
theorem hinge_section (c : Bool) (side : Side) (l r : V3) (h1 : l = ⟨0, if side = .left then -1 else 0, 0⟩)
    (h2 : r = ⟨0, if side = .left then 0 else 1, 0⟩) :
    (segSection c (hingeSeg side) l r 0).withIc2.toSection = hingeSec side := by
  have hu := unit_section c side l r h1 h2
  have hf : (segSection c (hingeSeg side) l r 0).flapEff = 0 := by
    show (if _ then etaH _ ((hingeSeg side).flapChord _) * epsF ((hingeSeg side).flapChord _) else 0) = 0
    have : ∀ z, (hingeSeg side).flapChord z = 0 := by
      intro z; unfold Seg.flapChord Seg.csChord leftRight; cases side <;> simp [hingeSeg, unitSeg]
    rw [this, epsF_zero, mul_zero, ite_self]
  have hm : (segSection c (hingeSeg side) l r 0).cmd = 0 := by
    show (if _ then cmD ((hingeSeg side).flapChord _) else 0) = 0
    have : ∀ z, (hingeSeg side).flapChord z = 0 := by
      intro z; unfold Seg.flapChord Seg.csChord leftRight; cases side <;> simp [hingeSeg, unitSeg]
    rw [this, cmD_zero, ite_self]
  have h : (segSection c (hingeSeg side) l r 0).withIc2.toSection =
      { (segSection c (unitSeg side) l r 0).withIc2.toSection with
        flapEff := (segSection c (hingeSeg side) l r 0).flapEff, cmd := (segSection c (hingeSeg side) l r 0).cmd } := rfl
  rw [h, hu, hf, hm]
  rfl

/-- the lifting-line geometry of the aircraft -/
noncomputable def hingeGeom : LLGeom (Fin 2) := ⟨⟨1, 0, 0⟩, ![hingeSec .left, hingeSec .right]⟩

theorem hinge_tips : hinge.segPosition (hingeSeg .left) .leftTip = .ok ⟨0, -1, 0⟩ ∧
    hinge.segPosition (hingeSeg .left) .rightTip = .ok 0 ∧
    hinge.segPosition (hingeSeg .right) .leftTip = .ok 0 ∧
    hinge.segPosition (hingeSeg .right) .rightTip = .ok ⟨0, 1, 0⟩ := by
  have hp : hinge.getPosition = 0 := rfl
  refine ⟨?_, ?_, ?_, ?_⟩ <;> simp only [Plane.segPosition, segPos, hingeSeg, unitSeg, hp, Seg.tipOffset, addOff] <;> simp
  all_goals ext <;> simp

theorem hinge_grid (c : Bool) : ∃ (a b : GridSec) (sl : List (ℕ × ℕ)) (ra : ℝ), mkGrid hinge c = .ok ⟨[a, b], sl, ra⟩ ∧
    Grid.geom ⟨[a, b], sl, ra⟩ hinge.cg = hingeGeom := by
  obtain ⟨g, hg⟩ := grid_exists _ _ _ hinge_wellFormed c
  obtain ⟨vs, hvs, h1, _, h3⟩ := mkGrid_ok hg
  have hseg : (built "hinge" none hingeOps).segments = [hingeSeg .left, hingeSeg .right] := rfl
  rw [hseg] at hvs
  obtain ⟨t1, t2, t3, t4⟩ := hinge_tips
  cases hvs with
  | cons hl h =>
    cases h with
    | cons hr h =>
      cases h
      obtain ⟨L, R, p1, p2, _, _, _, _, rfl⟩ := segData_ok hl
      obtain ⟨L', R', p1', p2', _, _, _, _, rfl⟩ := segData_ok hr
      have q1 := t1.symm.trans p1
      have q2 := t2.symm.trans p2
      have q3 := t3.symm.trans p1'
      have q4 := t4.symm.trans p2'
      simp only [Except.ok.injEq] at q1 q2 q3 q4
      subst q1 q2 q3 q4
      have e1 := hinge_section c .left ⟨0, -1, 0⟩ 0 (by simp) (by simp; rfl)
      have e2 := hinge_section c .right 0 ⟨0, 1, 0⟩ (by simp; rfl) (by simp)
      obtain ⟨data, sl, ra⟩ := g
      simp only at h1
      refine ⟨(segSection c (hingeSeg .left) ⟨0, -1, 0⟩ 0 0).withIc2, (segSection c (hingeSeg .right) 0 ⟨0, 1, 0⟩ 0).withIc2, sl, ra, ?_, ?_⟩
      · rw [show hinge = built "hinge" none hingeOps from rfl, hg, h1]; rfl
      · unfold Grid.geom hingeGeom
        rw [hinge_cg]
        congr 1
        funext i
        refine Fin.cases ?_ (fun j => ?_) i
        · exact e1
        · obtain ⟨j, hj⟩ := j
          have : j = 0 := by simp at hj; omega
          subst this
          exact e2

/-- the elevator of the aircraft moves surfaces of zero chord only -/
theorem hinge_flat (x : Control) : MovesNoChord hingeOps x := by
  intro id props m ch hm h1 h2
  simp only [hingeOps, List.mem_cons, List.not_mem_nil, or_false, reduceCtorEq, false_or, PlaneOp.controlSurface.injEq] at hm
  obtain ⟨-, rfl⟩ := hm
  cases h2
  exact .inr rfl

/-- the wing at 10 per second with its elevator at 0 -/
theorem hinge_solve (st : LLState (Fin 2)) : (llSolve hingeGeom st "linear" (some (unitAero _)) (some exCtrl)).1 = .ok exSol := by
  have ht : (unitAero (Fin 2)).truthy = true := rfl
  rw [llSolve_explicit _ _ _ _ ht exCtrl_truthy]
  have ha : arrOf hingeGeom (unitAero _) = .ok ⟨some exFlow.v, some exFlow.u, exFlow.rho⟩ := by
    simp [arrOf, unitAero, rotArr, AeroDict.hasRates, ex_freestream, ex_normalise, exFlow]
  have hc : ctrlOf hingeGeom exCtrl = exC := by
    simp [ctrlOf, exCtrl, exC, deflEff]
    funext i; rw [if_neg (by norm_num)]
  rw [ha, hc]
  have h : solveLinear hingeGeom.cg hingeGeom.S ⟨exFlow.v, exFlow.u, exFlow.rho⟩ exC = .ok exSol := by
    refine Eq.trans ?_ ex_solveLinear
    have : hingeGeom.S = fun i => { exGeom.S i with flapEff := 0, cmd := 0 } := by
      funext i; fin_cases i <;> rfl
    exact solveLinear_flap _ exGeom.S _ _ _ _ _ this fun _ => rfl
  simp only [kern, h]

-- C150: the hypotheses hold for the elevons of zero chord, and the solve succeeds with a force that is not 0
example (c : Bool) : (∀ x, MovesNoChord hingeOps x) ∧ ∃ g, mkGrid hinge c = .ok g ∧ ∀ st : LLState (Fin g.data.length),
    ∃ R, (llSolve (g.geom hinge.cg) st "linear" (some (unitAero _)) (some exCtrl)).1 = .ok R ∧ R.inviscid.FZ ≠ 0 := by
  obtain ⟨a, b, sl, ra, hg, hG⟩ := hinge_grid c
  refine ⟨hinge_flat, _, hg, fun st => ?_⟩
  rw [hG]
  exact ⟨exSol, hinge_solve st, exSol_FZ_ne⟩

/-- **C150 is refuted**: deflecting elevons of zero chord changes the drag.  The wing above, solved at 10 per second with the elevator at 0 and at 5
degrees, has different forces in flight direction. -/
theorem C150_refuted (c : Bool) : (∀ x, MovesNoChord hingeOps x) ∧ ∃ g, mkGrid (built "hinge" none hingeOps) c = .ok g ∧
    ∀ st : LLState (Fin g.data.length), ∃ R R',
      (llSolve (g.geom hinge.cg) st "linear" (some { Vmag := some 10, rho := some 1 }) (some { elevator := some 0 })).1 = .ok R ∧
      (llSolve (g.geom hinge.cg) st "linear" (some { Vmag := some 10, rho := some 1 }) (some { elevator := some 5 })).1 = .ok R' ∧
      R'.total.FX < R.total.FX := by
  obtain ⟨a, b, sl, ra, hg, hG⟩ := hinge_grid c
  refine ⟨hinge_flat, _, hg, fun st => ?_⟩
  have hI : ∀ x : Control, (fun _ => True) x → MovesNoChord hingeOps x := fun x _ => hinge_flat x
  have hc : CtrlDict.SameExcept (fun _ => True) { elevator := some 0 } { elevator := some 5 } := ⟨rfl, rfl, fun x hx => absurd trivial hx⟩
  have key := hinge_solve
  rw [← hG] at key
  obtain ⟨-, h⟩ := C150_same_lift_partial hg hI hc hinge.cg st (some { Vmag := some 10, rho := some 1 })
  obtain ⟨R', h1, h2, h3⟩ := h exSol (key st)
  refine ⟨exSol, R', key st, h1, ?_⟩
  obtain ⟨-, ⟨e, k1, k2⟩ | ⟨F, γ, k1, k2⟩⟩ := same_lift_core hg hI hc hinge.cg st (some { Vmag := some 10, rho := some 1 })
  · cases h1.symm.trans k2
  cases Except.ok.inj (h1.symm.trans k2)
  have hE : exSol = solOf hinge.cg (Grid.geom ⟨[a, b], sl, ra⟩ hinge.cg).S F (ctrlOf (Grid.geom ⟨[a, b], sl, ra⟩ hinge.cg) { elevator := some 0 }) γ :=
    Except.ok.inj ((key st).symm.trans k1)
  have tot : ∀ (G : LLGeom (Fin 2)) (F : Flow (Fin 2)) (C : Ctrl (Fin 2)) (γ : Fin 2 → ℝ), (solOf hinge.cg G.S F C γ).total.FX =
      ((solOf hinge.cg G.S F C γ).force 0).x + ((solOf hinge.cg G.S F C γ).force 1).x +
        (((solOf hinge.cg G.S F C γ).fpar 0).x + ((solOf hinge.cg G.S F C γ).fpar 1).x) := by
    intro G F C γ
    show (∑ i, secForce G.S F γ (vInd G.S F γ) i).x + (∑ i, secDrag G.S F C (vInd G.S F γ) i).x = _
    rw [Fin.sum_univ_two, Fin.sum_univ_two]
    rfl
  have cd0 : ∀ i, 0 < exSol.cd i := by
    intro i
    have : exSol.cd i = 1/100 + 1/100 * secCl exGeom.S (alphas exGeom.S (vInd exGeom.S exFlow fun _ => exGamma)) i ^ 2 := by
      show secCd exGeom.S exC _ i = _
      unfold secCd
      fin_cases i <;> simp [exGeom, exSec, exAf, exC, lerp] <;> ring
    rw [this]; positivity
  have fp0 : ∀ i, (exSol.fpar i).x < 0 := by
    intro i
    have h := cd0 i
    have ha : (exGeom.S i).area = 1 := by fin_cases i <;> rfl
    have hv : nrm (exFlow.v i) = 10 := by
      show nrm ⟨-10, 0, 0⟩ = 10
      rw [nrm_x]; norm_num
    have hn : 0 < nrm (⟨-10, 0, exGamma * (2 / (3 * Real.pi))⟩ : V3) := by
      refine lt_of_le_of_ne (Real.sqrt_nonneg _) fun h => ?_
      have := congrArg V3.x (nrm_eq_zero.1 h.symm)
      simp at this
    show (secDrag exGeom.S exFlow exC (vInd exGeom.S exFlow fun _ => exGamma) i).x < 0
    unfold secDrag
    simp only [ex_vInd, V3.smul_x, ha, hv]
    have hr : exFlow.rho i = 1 := rfl
    have hc : 0 < secCd exGeom.S exC (alphas exGeom.S (vInd exGeom.S exFlow fun _ => exGamma)) i := h
    have := one_div_pos.2 hn
    rw [hr]
    apply mul_neg_of_pos_of_neg
    · positivity
    · nlinarith
  have step : ∀ i : Fin 2, ((solOf hinge.cg (Grid.geom ⟨[a, b], sl, ra⟩ hinge.cg).S F
      (ctrlOf (Grid.geom ⟨[a, b], sl, ra⟩ hinge.cg) { elevator := some 5 }) γ).fpar i).x < (exSol.fpar i).x := by
    intro i
    obtain ⟨j1, j2⟩ := h3 i
    have d0 : deflectionAt (Grid.geom ⟨[a, b], sl, ra⟩ hinge.cg) { elevator := some 0 } i = 0 := by
      simp [deflectionAt, CtrlDict.entry]
    have d5 : deflectionAt (Grid.geom ⟨[a, b], sl, ra⟩ hinge.cg) { elevator := some 5 } i = 5 := by
      have hm : ((Grid.geom ⟨[a, b], sl, ra⟩ hinge.cg).S i).mixE = 1 := by
        have : ((Grid.geom ⟨[a, b], sl, ra⟩ hinge.cg).S i) = hingeGeom.S i := by rw [← hG]
        rw [this]
        fin_cases i <;> rfl
      simp [deflectionAt, CtrlDict.entry, hm]
    rw [d0, d5] at j1
    have j3 := congrArg V3.x j2
    simp only [V3.smul_x] at j3
    have a1 := cd0 i
    have a2 := fp0 i
    norm_num at j1
    have a3 : (solOf hinge.cg (Grid.geom ⟨[a, b], sl, ra⟩ hinge.cg).S F
      (ctrlOf (Grid.geom ⟨[a, b], sl, ra⟩ hinge.cg) { elevator := some 5 }) γ).cd i = exSol.cd i + 1/100 := by linarith
    rw [a3] at j3
    nlinarith
  have s0 := step 0
  have s1 := step 1
  have f0 := congrFun h2.force 0
  have f1 := congrFun h2.force 1
  have t' := tot (Grid.geom ⟨[a, b], sl, ra⟩ hinge.cg) F (ctrlOf (Grid.geom ⟨[a, b], sl, ra⟩ hinge.cg) { elevator := some 5 }) γ
  have t := tot (Grid.geom ⟨[a, b], sl, ra⟩ hinge.cg) F (ctrlOf (Grid.geom ⟨[a, b], sl, ra⟩ hinge.cg) { elevator := some 0 }) γ
  rw [← hE] at t
  rw [f0, f1] at t'
  refine lt_of_eq_of_lt t' (lt_of_lt_of_eq ?_ t.symm)
  linarith

end Verif
