import Verif.Lemmas.DeadControl
import Verif.Lemmas.OneMore
import Verif.Thm.MUDerivs
import Verif.Thm.PropMirror
import Verif.Thm.Omitted
import Verif.Thm.Decoupled
import Verif.Thm.CraftDerivs

/-!
# A control that moves no surface has no effect (C146)
-/

namespace Verif
open V3 Act

/-! ### The grid -/

/-- the share of a control in the mix of a control surface -/
def CtrlSurf.entry (c : CtrlSurf) : Control → Option ℝ
  | .aileron => c.aileron
  | .elevator => c.elevator
  | .rudder => c.rudder
  | .flap => c.flap

/-- the share of a control in the deflection of a section -/
def Section.share (S : Section) : Control → ℝ
  | .aileron => S.mixA
  | .elevator => S.mixE
  | .rudder => S.mixR
  | .flap => S.mixF

/-- no control surface of the aircraft is moved by the control -/
def Plane.Dead (p : Plane) (x : Control) : Prop := ∀ w ∈ p.heap, ∀ s ∈ w.segments, (s.cs.entry x).getD 0 = 0

theorem Plane.Dead.modify {p : Plane} {x : Control} (h : p.Dead x) {f : Seg → Seg} (hf : ∀ s, (s.cs.entry x).getD 0 = 0 → ((f s).cs.entry x).getD 0 = 0)
    (id : ℕ) : ({ p with heap := p.heap.modify id (·.mapSegs f) } : Plane).Dead x := by
  intro w hw s hs
  obtain ⟨k, hk⟩ := List.mem_iff_getElem?.1 hw
  simp only [List.getElem?_modify] at hk
  cases hq : p.heap[k]? with
  | none => rw [hq] at hk; simp at hk
  | some w0 =>
    rw [hq] at hk
    simp only [Option.map_eq_map, Option.map_some, Option.some.injEq] at hk
    have h0 := h w0 (List.mem_of_getElem? hq)
    split at hk
    · subst hk
      obtain ⟨s0, hs0, rfl⟩ := mem_segments_mapSegs hs
      exact hf _ (h0 s0 hs0)
    · subst hk; exact h0 s hs

theorem mkWing_dead {name side : String} {d : WingDims} {w : Wing} (h : mkWing name side d = .ok w) (x : Control) :
    ∀ s ∈ w.segments, (s.cs.entry x).getD 0 = 0 := by
  have hseg : ∀ n sd, ((mkSeg n sd d).cs.entry x).getD 0 = 0 := fun n sd => by cases x <;> rfl
  unfold mkWing at h
  split_ifs at h
  all_goals
    cases h
    intro s hs
    simp only [Wing.segments, List.mem_cons, List.not_mem_nil, or_false] at hs
  · rcases hs with rfl | rfl <;> exact hseg _ _
  · subst hs; exact hseg _ _
  · subst hs; exact hseg _ _

theorem mkCtrlSurf_dead {props : CtrlSurfProps} {c : CtrlSurf} {x : Control} (h : mkCtrlSurf props = .ok c)
    (hm : ∀ m, props.mix = some m → (m.entry x).getD 0 = 0) : (c.entry x).getD 0 = 0 := by
  unfold mkCtrlSurf at h
  split_ifs at h
  · cases h1 : props.percentSpan with
    | none => rw [h1] at h; cases h
    | some sp =>
      cases h2 : props.percentChord with
      | none => rw [h1, h2] at h; cases h
      | some ch =>
        cases h3 : props.mix with
        | none => rw [h1, h2, h3] at h; cases h
        | some m =>
          rw [h1, h2, h3] at h
          cases h
          have := hm m h3
          cases x <;> exact this
  · cases h
    cases x <;> rfl

theorem Plane.Dead.run {p : Plane} {x : Control} (h : p.Dead x) {op : PlaneOp} (ho : MovesNothing [op] x) : (op.run p).Dead x := by
  cases op with
  | addWing name parent location side d =>
    simp only [PlaneOp.run, addWing_eq]
    cases hw : mkWing name side d with
    | error e => exact h
    | ok w =>
      have h0 := mkWing_dead hw x
      have key : ∀ w' : Wing, (∀ s ∈ w'.segments, (s.cs.entry x).getD 0 = 0) →
          ∀ v ∈ p.heap ++ [w'], ∀ s ∈ v.segments, (s.cs.entry x).getD 0 = 0 := by
        intro w' hw' v hv
        rcases List.mem_append.1 hv with hv | hv
        · exact h v hv
        · rw [List.mem_singleton.1 hv]; exact hw'
      cases targetOf (dictSet p.wings name p.heap.length) parent with
      | error e => exact key w h0
      | ok t =>
        refine key _ fun s hs => ?_
        obtain ⟨s0, hs0, rfl⟩ := mem_segments_mapSegs hs
        exact h0 s0 hs0
  | airfoil id name e props =>
    simp only [PlaneOp.run, Plane.wingAirfoil]
    cases mkAirfoil name props with
    | error e => exact h
    | ok a =>
      refine h.modify (fun s hs => ?_) id
      have : (s.setAirfoil e a).cs = s.cs := by unfold Seg.setAirfoil; split_ifs <;> rfl
      rw [this]
      exact hs
  | controlSurface id props =>
    simp only [PlaneOp.run, Plane.wingCtrl]
    cases hc : mkCtrlSurf props with
    | error e => exact h
    | ok c => exact h.modify (fun s _ => mkCtrlSurf_dead hc fun m hm => ho id props m (by simp) hm) id
  | addProp name d => exact h
  | propAirfoil name af props =>
    simp only [PlaneOp.run, Plane.propAirfoil]
    cases mkAirfoil af props with
    | error er => exact h
    | ok a => simp only; cases dictGet p.props name <;> exact h
  | cgLocation x y z => exact h
  | setRefLengths a b => exact h

theorem built_dead (nm : String) (pos : Option V3) {ops : List PlaneOp} {x : Control} (h : MovesNothing ops x) : (built nm pos ops).Dead x := by
  unfold built
  have h0 : (newPlane nm pos).Dead x := by intro w hw; simp [newPlane] at hw
  generalize newPlane nm pos = p at h0
  induction ops generalizing p with
  | nil => exact h0
  | cons op t ih =>
    refine ih (fun id props m hm => h id props m (List.mem_cons_of_mem _ hm)) _ (h0.run fun id props m hm => ?_)
    rw [List.mem_singleton] at hm
    exact h id props m (by rw [hm]; simp)

open Classical in
theorem segSecs_dead {p : Plane} {c : Bool} {s : Seg} {x : Control} (hs : (s.cs.entry x).getD 0 = 0) {y : GridSec} (hy : y ∈ segSecs p c s) :
    y.toSection.share x = 0 := by
  unfold segSecs at hy
  cases hd : Verif.segData p c s with
  | error e => rw [hd] at hy; cases hy
  | ok v =>
    rw [hd] at hy
    simp only at hy
    unfold Verif.segData at hd
    have key : ∀ l r i, (segSection c s l r i).toSection.share x = 0 := by
      intro l r i
      have hside : ∀ o : Option ℝ, o.getD 0 = 0 → (o.map fun v => if s.side = .right then v else -v).getD 0 = 0 := by
        intro o ho
        cases o with
        | none => rfl
        | some v => simp only [Option.getD_some] at ho; simp [ho]
      have h0 : ∀ (b : Prop) [Decidable b] (v : ℝ), v = 0 → (if b then v else 0) = 0 := by
        intro b _ v hv; split_ifs <;> [exact hv; rfl]
      cases x
      · exact h0 _ _ (hside _ hs)
      · exact h0 _ _ hs
      · exact h0 _ _ (hside _ hs)
      · exact h0 _ _ hs
    repeat' split at hd
    all_goals first | (cases hd; done) | skip
    all_goals
      cases hd
      obtain ⟨k, -, rfl⟩ := List.mem_map.1 hy
      exact key _ _ _

theorem grid_dead {p : Plane} {c : Bool} {g : Grid} (hg : mkGrid p c = .ok g) {x : Control} (h : p.Dead x) (cg : V3) (i) :
    ((g.geom cg).S i).share x = 0 := by
  have hm : g.data.get i ∈ (p.segments.flatMap (segSecs p c)).map GridSec.withIc2 := by
    rw [← (mkGrid_segSecs hg).1]; exact List.getElem_mem _
  obtain ⟨y, hy, hyx⟩ := List.mem_map.1 hm
  obtain ⟨s, hs, hys⟩ := List.mem_flatMap.1 hy
  rw [segments_eq, List.mem_flatMap] at hs
  obtain ⟨w, hw, hs⟩ := hs
  have hw' : w ∈ p.heap := by
    simp only [Plane.wingList, List.mem_filterMap] at hw
    obtain ⟨a, -, ha⟩ := hw
    exact List.mem_of_getElem? ha
  have := segSecs_dead (h w hw' s hs) hys
  show (g.data.get i).toSection.share x = 0
  rw [← hyx]
  cases x <;> exact this

/-! ### The wing solver -/

theorem processCtrl_dead {n : ℕ} {G : LLGeom (Fin n)} {I : Control → Prop} (hI : ∀ x, I x → ∀ i, (G.S i).share x = 0) {c c' : Option CtrlDict}
    (h : SameMoving I c c') (st : LLState (Fin n)) : processCtrl G st c' = processCtrl G st c := by
  cases h with
  | same => rfl
  | entries c c' h =>
    have key : ∀ x i, (c'.entry x).getD 0 * (G.S i).share x = (c.entry x).getD 0 * (G.S i).share x := by
      intro x i
      by_cases hx : I x
      · rw [hI x hx i, mul_zero, mul_zero]
      · rw [h.entry x hx]
    have kA := key .aileron
    have kE := key .elevator
    have kR := key .rudder
    have kF := key .flap
    simp only [CtrlDict.entry, Section.share] at kA kE kR kF
    unfold processCtrl
    simp only [h.given, h.given', if_true, kA, kE, kR, kF]

section
variable {o : Analyser} {p : Plane} {simps : List ℝ → List ℝ → ℝ} {fuel : ℕ}
  {bad : Act (LLState (Fin (sectionsOf o.wing)) × List (PropSlot (Fin (sectionsOf o.wing)))) (Option Loads)}
  {table : String → ℝ → ℝ} {mem : String → ℕ → ℕ → Option ℝ} {I : Control → Prop}

theorem open_dead {nm : String} {pos : Option V3} {ops : List PlaneOp} {units : Option (Option String)} {cg : V3}
    (hp : p = { built nm pos ops with units, cg }) (ho : openMachUp table mem p = .ok o) {x : Control} (hx : MovesNothing ops x) (i) :
    ((geomOf p.cg o.wing).S i).share x = 0 := by
  have hd : p.Dead x := by
    rw [hp]
    exact built_dead nm pos hx
  have hw := (slots_cases ho).1
  obtain ⟨wing, slots⟩ := o
  cases wing with
  | none => exact i.elim0
  | some w =>
    simp only at hw
    unfold mkWingPart at hw
    by_cases h0 : p.wings = []
    · rw [if_pos h0] at hw; cases hw
    rw [if_neg h0] at hw
    cases hg : mkGrid p true with
    | error e => rw [hg] at hw; cases hw
    | ok g =>
      rw [hg] at hw
      simp only [bind, Except.bind] at hw
      cases hr : refLengths p g.refArea with
      | error e => rw [hr] at hw; cases hw
      | ok r =>
        rw [hr] at hw
        cases hw
        exact grid_dead hg hd p.cg i

theorem backend_ignores (hI : ∀ x, I x → ∀ i, ((geomOf p.cg o.wing).S i).share x = 0) : Ignores (o.backend p simps fuel bad) I := by
  intro d c c' h
  have hll : ∀ st, llSolve (geomOf p.cg o.wing) st "linear" (some d) c' = llSolve (geomOf p.cg o.wing) st "linear" (some d) c := by
    intro st
    unfold llSolve
    simp only [processCtrl_dead hI h]
  funext s
  have k := backend_wingSolve (o := o) (p := p) (simps := simps) (fuel := fuel) (bad := bad) d c s
  have k' := backend_wingSolve (o := o) (p := p) (simps := simps) (fuel := fuel) (bad := bad) d c' s
  rw [hll] at k'
  exact k'.trans k.symm

/-- **C146.** `I` are controls that move no surface: none of the calls of `control_surface` that built the aircraft gives them a share in
a mix.  In two sessions on the aircraft, with any wings and propellers, with the same calls except for the deflections of these
controls, every call has the same outcome, writes the same files and leaves the caller's `aero_state` the same and their
`control_state` the same except for these controls. -/
theorem C146_no_effect {nm : String} {pos : Option V3} {ops : List PlaneOp} {units : Option (Option String)} {cg : V3}
    (hp : p = { built nm pos ops with units, cg }) (ho : openMachUp table mem p = .ok o) (hI : ∀ x, I x → MovesNothing ops x)
    (a0 : Option (AeroDict (Fin (sectionsOf o.wing)))) (c0 : Option CtrlDict)
    (hist hist' : List (AnyCall (o.backend p simps fuel bad))) (c c' : AnyCall (o.backend p simps fuel bad))
    (hh : List.Forall₂ (AnyCall.SameMoving I) (hist ++ [c]) (hist' ++ [c'])) :
    let fresh := o.fresh p simps fuel bad a0 c0
    let r := c.run p.cg (afterCalls p.cg fresh hist)
    let r' := c'.run p.cg (afterCalls p.cg fresh hist')
    r'.1 = r.1 ∧ r'.2.aero = r.2.aero ∧ SameMoving I r.2.ctrl r'.2.ctrl ∧ r'.2.files = r.2.files := by
  intro fresh r r'
  have hF : Ignores (o.backend p simps fuel bad) I := backend_ignores fun x hx => open_dead hp ho (hI x hx)
  have one : ∀ {c c' : AnyCall (o.backend p simps fuel bad)}, AnyCall.SameMoving I c c' → ∀ {w w' : World (o.backend p simps fuel bad)},
      w'.files = w.files → w'.st = w.st → (c'.run p.cg w').1 = (c.run p.cg w).1 ∧ Unmoved I (c.run p.cg w).2 (c'.run p.cg w').2 := by
    intro c c' h w w' h1 h2
    have hr : Unmoved (B := o.backend p simps fuel bad) I { w with aero := c.aero, ctrl := c.ctrl } { w' with aero := c'.aero, ctrl := c'.ctrl } :=
      ⟨h.aero, h.ctrl, h1, h2⟩
    unfold AnyCall.run
    rw [h.what, h.ps]
    obtain ⟨k1, k2⟩ := Still.any (ps := c.ps) hF p.cg c.what _ _ hr
    exact ⟨Outcome.to_eq k1, k2⟩
  have key : ∀ (l l' : List (AnyCall (o.backend p simps fuel bad))) (w w' : World (o.backend p simps fuel bad)),
      w'.files = w.files → w'.st = w.st → List.Forall₂ (AnyCall.SameMoving I) (l ++ [c]) (l' ++ [c']) →
      (c'.run p.cg (afterCalls p.cg w' l')).1 = (c.run p.cg (afterCalls p.cg w l)).1 ∧
        Unmoved I (c.run p.cg (afterCalls p.cg w l)).2 (c'.run p.cg (afterCalls p.cg w' l')).2 := by
    intro l
    induction l with
    | nil =>
      intro l' w w' hf hs h1
      have hl : l' = [] := by
        have := h1.length_eq
        simp only [List.nil_append, List.length_append, List.length_cons, List.length_nil] at this
        exact List.length_eq_zero_iff.1 (by omega)
      subst hl
      simp only [List.nil_append, List.forall₂_cons] at h1
      exact one h1.1 hf hs
    | cons x l ih =>
      intro l' w w' hf hs h1
      cases l' with
      | nil =>
        have := h1.length_eq
        simp at this
      | cons x' l' =>
        simp only [List.cons_append, List.forall₂_cons] at h1
        obtain ⟨k1, k2⟩ := one h1.1 hf hs
        exact ih l' _ _ k2.files k2.st h1.2
  obtain ⟨k1, k2⟩ := key hist hist' fresh fresh rfl rfl hh
  exact ⟨k1, k2.aero, k2.ctrl, k2.files⟩

/-- what a solve returns for deflections that differ in such a control -/
theorem solvedAt_same {ι : Type} {B : Backend ι} (hn : B.hasProps = false) (hF : Ignores B I)
    (hG : ∀ d c s s', d.truthy = true → c.truthy = true → (B.wingSolve d (some c) s').1 = (B.wingSolve d (some c) s).1) {ps : Option B.π}
    {d : AeroDict ι} (hd : d.truthy = true) {c c' : CtrlDict} (h : c.SameExcept I c') {r r' : Loads}
    (hr : SolvedAt ps d (some c) r) (hr' : SolvedAt ps d (some c') r') : r' = r := by
  obtain ⟨w, w1, d1, e1, s1, k1, r1⟩ := hr
  obtain ⟨w', w1', d1', e1', s1', k1', r1'⟩ := hr'
  have z : (B.hasProps && B.hasWings) = false := by rw [hn]; rfl
  have z1 := s1.2 z
  have z2 := s1'.2 z
  subst z1
  subst z2
  rw [muSolve_noProps hn w e1 hd, k1] at r1
  rw [muSolve_noProps hn w' e1' hd, k1', hF d1' (some c) (some c') (.entries _ _ h)] at r1'
  have hg := hG d1' c w.st w'.st hd h.given
  cases hw : B.hasWings <;> rw [hw] at r1 r1'
  · simp only [Bool.false_eq_true, if_false, Prod.mk.injEq, Except.ok.injEq] at r1 r1'
    rw [← r1.1, ← r1'.1]
  · simp only [if_true] at r1 r1'
    rcases hq : B.wingSolve d1' (some c) w.st with ⟨e | R, st⟩ <;> rcases hq' : B.wingSolve d1' (some c) w'.st with ⟨e' | R', st'⟩ <;>
      rw [hq] at r1 hg <;> rw [hq'] at r1' hg <;> simp only [Prod.mk.injEq, Except.ok.injEq, reduceCtorEq, false_and] at r1 r1' hg
    rw [← r1.1, ← r1'.1, hg]

theorem solvedAt_dead (hnp : p.props = []) (hI : ∀ x, I x → ∀ i, ((geomOf p.cg o.wing).S i).share x = 0) {ps : Option PropDict}
    {d : AeroDict (Fin (sectionsOf o.wing))} (hd : d.truthy = true) {c c' : CtrlDict} (h : c.SameExcept I c') {r r' : Loads}
    (hr : SolvedAt (B := o.backend p simps fuel bad) ps d (some c) r) (hr' : SolvedAt (B := o.backend p simps fuel bad) ps d (some c') r') : r' = r := by
  refine solvedAt_same (B := o.backend p simps fuel bad) (by show (!p.props.isEmpty) = false; rw [hnp]; rfl) (backend_ignores hI) (fun d c s s' hd hc => ?_)
    hd h hr hr'
  have k := backend_wingSolve (o := o) (p := p) (simps := simps) (fuel := fuel) (bad := bad) d (some c) s
  have k' := backend_wingSolve (o := o) (p := p) (simps := simps) (fuel := fuel) (bad := bad) d (some c) s'
  refine (congrArg Prod.fst k').trans (Eq.trans ?_ (congrArg Prod.fst k).symm)
  split_ifs
  · exact llSolve_given _ _ _ d (some c) hd hc
  · rfl

theorem zero_difference {B : Backend (Fin (sectionsOf o.wing))} {D : Option Deriv} {r : Loads} {h q : ℝ} (hD : ReportedDerivative B D r r h q) {D' : Deriv}
    (e : D = some D') : D' = ⟨0, 0, 0, 0, 0, 0, 0, 0, 0⟩ := by
  obtain ⟨h1, h2, h3, h4, h5, h6, h7, h8, h9⟩ := hD.1 D' e
  rw [sub_self, zero_div, zero_div] at h1 h2 h3 h4 h5 h6 h7 h8 h9
  cases D'
  simp only at h1 h2 h3 h4 h5 h6 h7 h8 h9
  rw [h1, h2, h3, h4, h5, h6, h7, h8, h9]

/-- **C146, derivatives.** The control derivatives of an aircraft without propellers with respect to a control that moves no surface are
all 0, in any state of the object, flight condition and control state (unless they are `nan` because a divisor is 0). -/
theorem C146_derivatives {nm : String} {pos : Option V3} {ops : List PlaneOp} {units : Option (Option String)} {cg : V3}
    (hp : p = { built nm pos ops with units, cg }) (ho : openMachUp table mem p = .ok o) (hnp : p.props = []) {x : Control}
    (hx : MovesNothing ops x) {ps : Option PropDict} {w w' : World (o.backend p simps fuel bad)} {D : ContDeriv} {D' : Deriv}
    (hd : aeroGiven w = true) (h : controlDerivatives ps w = (.ok D, w')) (hD : D.of x = some D') :
    D' = ⟨0, 0, 0, 0, 0, 0, 0, 0, 0⟩ := by
  have hI : ∀ y, y = x → ∀ i, ((geomOf p.cg o.wing).S i).share y = 0 := fun y hy => by subst hy; exact open_dead hp ho hx
  have main : ∀ (w w' : World (o.backend p simps fuel bad)) (c : CtrlDict), aeroGiven w = true → w.ctrl = some c → c.truthy = true →
      controlDerivatives ps w = (.ok D, w') → D' = ⟨0, 0, 0, 0, 0, 0, 0, 0, 0⟩ := by
    intro w w' c hd hc ht h
    unfold aeroGiven at hd
    cases ha : w.aero with
    | none => rw [ha] at hd; cases hd
    | some d =>
      rw [ha] at hd
      have hd : d.truthy = true := hd
      obtain ⟨-, -, -, aF, aB, eF, eB, rF, rB, fF, fB, h1, h2, h3, h4, h5, h6, h7, h8, q1, q2, q3, q4⟩ := C44_control_derivatives ha hc ht h
      cases x
      case aileron =>
        rw [solvedAt_dead (I := fun y => y = .aileron) hnp hI hd ((sets_aileron _).same (I := fun y => y = .aileron) (sets_aileron _) (Or.inl rfl) fun _ _ => rfl) h1 h2] at q1
        exact zero_difference q1 hD
      case elevator =>
        rw [solvedAt_dead (I := fun y => y = .elevator) hnp hI hd ((sets_elevator _).same (I := fun y => y = .elevator) (sets_elevator _) (Or.inl rfl) fun _ _ => rfl) h3 h4] at q2
        exact zero_difference q2 hD
      case rudder =>
        rw [solvedAt_dead (I := fun y => y = .rudder) hnp hI hd ((sets_rudder _).same (I := fun y => y = .rudder) (sets_rudder _) (Or.inl rfl) fun _ _ => rfl) h5 h6] at q3
        exact zero_difference q3 hD
      case flap =>
        rw [solvedAt_dead (I := fun y => y = .flap) hnp hI hd ((sets_flap _).same (I := fun y => y = .flap) (sets_flap _) (Or.inl rfl) fun _ _ => rfl) h7 h8] at q4
        exact zero_difference q4 hD
  cases hc : ctrlGiven w
  · have hz : ctrlGiven ({ w with ctrl := some zeroCtrlDict } : World (o.backend p simps fuel bad)) = true := rfl
    refine main { w with ctrl := some zeroCtrlDict } (controlDerivatives ps { w with ctrl := some zeroCtrlDict }).2 zeroCtrlDict hd rfl rfl ?_
    unfold controlDerivatives at h ⊢
    rw [get_bind, hc] at h
    rw [get_bind, hz]
    simp only [Bool.false_eq_true, if_false, if_true] at h ⊢
    unfold withCtrl at h
    refine Prod.ext ?_ rfl
    exact (congrArg Prod.fst h : (contBody ps { w with ctrl := some zeroCtrlDict }).1 = .ok D)
  · unfold ctrlGiven at hc
    cases hk : w.ctrl with
    | none => rw [hk] at hc; cases hc
    | some c => rw [hk] at hc; exact main w w' c hd hk hc h

/-- the control derivatives `derivatives` reports -/
theorem derivatives_control {ι : Type} {B : Backend ι} {ps : Option B.π} {f : Option String} {w w' : World B} {D : AllDerivs}
    (hd : aeroGiven w = true) (h : derivatives ps f w = (.ok (some D), w')) :
    ∃ w1 w2, aeroGiven w1 = true ∧ w1.ctrl = w.ctrl ∧ controlDerivatives ps w1 = (.ok D.cont, w2) := by
  unfold derivatives at h
  cases hw : B.hasWings
  · rw [hw] at h
    simp only [Bool.false_eq_true, if_false] at h
    cases f with
    | none => cases h
    | some f =>
      obtain ⟨_, _, -, h⟩ := bind_ok.1 h
      cases h
  · rw [hw] at h
    simp only [if_true] at h
    obtain ⟨s, w1, h1, h⟩ := bind_ok.1 h
    obtain ⟨c, w2, h2, h⟩ := bind_ok.1 h
    obtain ⟨d, w3, -, h⟩ := bind_ok.1 h
    obtain ⟨_, w4, -, h⟩ := bind_ok.1 h
    cases h
    cases ha : w.aero with
    | none => rw [aeroGiven, ha] at hd; cases hd
    | some a =>
      rw [aeroGiven, ha] at hd
      obtain ⟨⟨d', e1, e2⟩, e3, -⟩ := C42_stability_derivatives ha hd h1
      refine ⟨w1, w2, ?_, e3, h2⟩
      have he := congrArg AeroDict.alpha e2.1
      simp only [AeroDict.sansField] at he
      rw [aeroGiven, e1]
      simp [AeroDict.truthy, he]

/-- **C146, `derivatives`.** The same for the control derivatives `derivatives` reports. -/
theorem C146_all_derivatives {nm : String} {pos : Option V3} {ops : List PlaneOp} {units : Option (Option String)} {cg : V3}
    (hp : p = { built nm pos ops with units, cg }) (ho : openMachUp table mem p = .ok o) (hnp : p.props = []) {x : Control}
    (hx : MovesNothing ops x) {ps : Option PropDict} {f : Option String} {w w' : World (o.backend p simps fuel bad)} {D : AllDerivs} {D' : Deriv}
    (hd : aeroGiven w = true) (h : derivatives ps f w = (.ok (some D), w')) (hD : D.cont.of x = some D') :
    D' = ⟨0, 0, 0, 0, 0, 0, 0, 0, 0⟩ := by
  obtain ⟨w1, w2, h1, -, h2⟩ := derivatives_control hd h
  exact C146_derivatives hp ho hnp hx h1 h2 hD

end

/-! ### The hypotheses are met -/

theorem unit_dead (x : Control) (hx : x = .rudder ∨ x = .flap) : MovesNothing unitOps x := by
  intro id props m hm h
  simp only [unitOps, List.mem_cons, List.not_mem_nil, or_false, reduceCtorEq, false_or, PlaneOp.controlSurface.injEq] at hm
  obtain ⟨-, rfl⟩ := hm
  cases h
  rcases hx with rfl | rfl <;> rfl

-- C146: an aircraft with a wing, whose control surface is moved by aileron and elevator, and a propeller: trimming it and then solving,
-- with the rudder at 5 degrees and the flaps left out, and with other settings of both
example (table : String → ℝ → ℝ) (mem : String → ℕ → ℕ → Option ℝ) (simps : List ℝ → List ℝ → ℝ) (fuel : ℕ) :
    ∃ o, openMachUp table mem craft = .ok o ∧ ∀ bad (a : AeroDict (Fin (sectionsOf o.wing))) (ps : Option PropDict) (e : ℝ),
      ((⟨.solve none, some a, some { elevator := some e, rudder := some 7, flap := some (-3) }, ps⟩ : AnyCall (o.backend craft simps fuel bad)).run craft.cg
          (afterCalls craft.cg (o.fresh craft simps fuel bad none none) [⟨.pitchTrim 1 0 1 none, some a, some { flap := some 2 }, ps⟩])).1 =
        ((⟨.solve none, some a, some { elevator := some e, rudder := some 5 }, ps⟩ : AnyCall (o.backend craft simps fuel bad)).run craft.cg
          (afterCalls craft.cg (o.fresh craft simps fuel bad none none) [⟨.pitchTrim 1 0 1 none, some a, some { aileron := some 0, rudder := some 1 }, ps⟩])).1 := by
  obtain ⟨o, ho⟩ : ∃ o, openMachUp table mem craft = .ok o := let ⟨_, _, _, h⟩ := craft_open table mem; ⟨_, h⟩
  have hcr : craft = { built "craft" none craftOps with units := some none, cg := craft.cg } := rfl
  refine ⟨o, ho, fun bad a ps e => ?_⟩
  refine (C146_no_effect (I := fun x => x = .rudder ∨ x = .flap) hcr ho (fun x hx id props m hm h => ?_) none none [_] [_] _ _ ?_).1
  · rcases List.mem_append.1 hm with hm | hm
    · exact unit_dead x hx id props m hm h
    · simp [rotorOps] at hm
  · refine .cons ⟨rfl, rfl, rfl, .entries _ _ ⟨rfl, rfl, fun x hx => ?_⟩⟩ (.cons ⟨rfl, rfl, rfl, .entries _ _ ⟨rfl, rfl, fun x hx => ?_⟩⟩ .nil) <;>
      cases x <;> first | rfl | exact absurd (.inl rfl) hx | exact absurd (.inr rfl) hx

-- C146, derivatives: the rudder derivatives of the wing exist and are 0
example (table : String → ℝ → ℝ) (mem : String → ℕ → ℕ → Option ℝ) (simps : List ℝ → List ℝ → ℝ) (fuel : ℕ) :
    ∃ o, openMachUp table mem unitPlane = .ok o ∧ ∀ bad, ∃ D, (derivatives (B := o.backend unitPlane simps fuel bad) none none
        (o.fresh unitPlane simps fuel bad (some { Vmag := some 10, rho := some 1 }) (some { aileron := some 0 }))).1 = .ok (some D) ∧
      D.cont.dr = some ⟨0, 0, 0, 0, 0, 0, 0, 0, 0⟩ := by
  obtain ⟨o, ho, -, -, hD⟩ := unit_derives table mem simps fuel
  refine ⟨o, ho, fun bad => ?_⟩
  obtain ⟨D, v, e, -, hn, -⟩ := hD bad
  refine ⟨D, congrArg Prod.fst e, ?_⟩
  obtain ⟨w1, w2, h1, h2, h3⟩ := derivatives_control (B := o.backend unitPlane simps fuel bad) rfl e
  obtain ⟨d, hd⟩ : ∃ d, w1.aero = some d := by
    cases ha : w1.aero with
    | none => rw [aeroGiven, ha] at h1; cases h1
    | some d => exact ⟨d, rfl⟩
  obtain ⟨-, -, -, _, _, _, _, _, _, _, _, -, -, -, -, -, -, -, -, q1, -, q3, -⟩ := C44_control_derivatives hd (h2.trans rfl) rfl h3
  cases hr : D.cont.dr with
  | none => exact absurd (q1.2.2 (q3.2.1 hr)) hn
  | some D' =>
    have hcr : unitPlane = { built "unit" none unitOps with units := none, cg := unitPlane.cg } := rfl
    rw [C146_all_derivatives hcr ho rfl (unit_dead .rudder (.inl rfl)) (bad := bad) rfl e hr]

end Verif
