import Verif.Spec.WingCalls
import Verif.Lemmas.Geometry
import Verif.Thm.Grid
import Verif.Thm.Flap

/-!
# A wing is what the calls made on it say (C92, C93, C94)
-/

namespace Verif
open V3

/-! ### helper lemmas -/

theorem created_run (p : Plane) (op : PlaneOp) :
    (op.run p).heap.length = p.heap.length + wingsCreated [op] := by
  unfold wingsCreated addCalls
  cases op with
  | addWing name parent location side d =>
    simp only [PlaneOp.run, addWing_eq]
    by_cases hs : ValidSide side
    · have : ∃ w, mkWing name side d = .ok w := by rcases hs with rfl | rfl | rfl <;> exact ⟨_, rfl⟩
      obtain ⟨w, hw⟩ := this
      rw [hw]
      simp only
      cases targetOf (dictSet p.wings name p.heap.length) parent <;> simp [hs]
    · have : mkWing name side d = .error .runtime := by
        unfold ValidSide at hs
        push Not at hs
        simp [mkWing, hs.1, hs.2.1, hs.2.2]
      rw [this]
      simp [hs]
  | airfoil id name e props =>
    simp only [PlaneOp.run, Plane.wingAirfoil]
    cases mkAirfoil name props <;> simp
  | controlSurface id props =>
    simp only [PlaneOp.run, Plane.wingCtrl]
    cases mkCtrlSurf props <;> simp
  | addProp name d => rfl
  | propAirfoil name af props =>
    simp only [PlaneOp.run, Plane.propAirfoil]
    cases mkAirfoil af props with
    | error er => rfl
    | ok a => simp only; cases dictGet p.props name <;> rfl
  | cgLocation x y z => rfl
  | setRefLengths a b => rfl

theorem wingsCreated_append (a b : List PlaneOp) : wingsCreated (a ++ b) = wingsCreated a + wingsCreated b := by
  simp [wingsCreated, addCalls, List.filterMap_append]

theorem created_runOps (ops : List PlaneOp) : ∀ p : Plane, (runOps p ops).heap.length = p.heap.length + wingsCreated ops := by
  induction ops with
  | nil => intro p; simp [runOps, wingsCreated, addCalls]
  | cons op t ih =>
    intro p
    have := ih (op.run p)
    rw [created_run] at this
    rw [show op :: t = [op] ++ t from rfl, wingsCreated_append, ← add_assoc, ← this]
    rfl

/-- a property of the wing object `id` that a call does not touch -/
def CallKeeps (id : ℕ) (P : Wing → Prop) (op : PlaneOp) : Prop :=
  match op with
  | .airfoil i name e props => i = id → ∀ a, mkAirfoil name props = .ok a → ∀ w, P w → P (w.mapSegs (·.setAirfoil e a))
  | .controlSurface i props => i = id → ∀ c, mkCtrlSurf props = .ok c → ∀ w, P w → P (w.mapSegs fun s => { s with cs := c })
  | _ => True

theorem heap_keeps_run {id : ℕ} {P : Wing → Prop} {p : Plane} (op : PlaneOp) (hk : CallKeeps id P op)
    (h : ∃ w, p.heap[id]? = some w ∧ P w) : ∃ w, (op.run p).heap[id]? = some w ∧ P w := by
  obtain ⟨w, hw, hP⟩ := h
  have hlt : id < p.heap.length := (List.getElem?_eq_some_iff.1 hw).1
  cases op with
  | addWing name parent location side d =>
    simp only [PlaneOp.run, addWing_eq]
    cases mkWing name side d with
    | error e => exact ⟨w, hw, hP⟩
    | ok w' =>
      simp only
      cases targetOf (dictSet p.wings name p.heap.length) parent <;>
        exact ⟨w, by simp only [List.getElem?_append_left hlt, hw], hP⟩
  | airfoil i name e props =>
    simp only [PlaneOp.run, Plane.wingAirfoil]
    cases ha : mkAirfoil name props with
    | error er => exact ⟨w, hw, hP⟩
    | ok a =>
      simp only [List.getElem?_modify, hw]
      by_cases hi : i = id
      · exact ⟨w.mapSegs (·.setAirfoil e a), by simp [hi], hk hi a ha w hP⟩
      · exact ⟨w, by simp [hi], hP⟩
  | controlSurface i props =>
    simp only [PlaneOp.run, Plane.wingCtrl]
    cases ha : mkCtrlSurf props with
    | error er => exact ⟨w, hw, hP⟩
    | ok c =>
      simp only [List.getElem?_modify, hw]
      by_cases hi : i = id
      · exact ⟨w.mapSegs fun s => { s with cs := c }, by simp [hi], hk hi c ha w hP⟩
      · exact ⟨w, by simp [hi], hP⟩
  | addProp name d => exact ⟨w, hw, hP⟩
  | propAirfoil name af props =>
    simp only [PlaneOp.run, Plane.propAirfoil]
    cases mkAirfoil af props with
    | error er => exact ⟨w, hw, hP⟩
    | ok a => simp only; cases dictGet p.props name <;> exact ⟨w, hw, hP⟩
  | cgLocation x y z => exact ⟨w, hw, hP⟩
  | setRefLengths a b => exact ⟨w, hw, hP⟩

theorem heap_keeps {id : ℕ} {P : Wing → Prop} (ops : List PlaneOp) (hk : ∀ op ∈ ops, CallKeeps id P op) :
    ∀ {p : Plane}, (∃ w, p.heap[id]? = some w ∧ P w) → ∃ w, (runOps p ops).heap[id]? = some w ∧ P w := by
  induction ops with
  | nil => intro p h; exact h
  | cons op t ih =>
    intro p h
    exact ih (fun o ho => hk o (List.mem_cons_of_mem _ ho)) (heap_keeps_run op (hk op List.mem_cons_self) h)

/-- the wing object right after its `add_wing` call -/
theorem fresh_wing (nm : String) (pos : Option V3) (pre : List PlaneOp) (name : String) (parent : Option String)
    (location side : String) (d : WingDims) (hs : ValidSide side) :
    ∃ w0 w, mkWing name side d = .ok w0 ∧
      (built nm pos (pre ++ [.addWing name parent location side d])).heap[wingsCreated pre]? = some w ∧
      (w = w0 ∨ ∃ t, w = w0.mapSegs (·.connectTo t location)) := by
  have hw : ∃ w, mkWing name side d = .ok w := by rcases hs with rfl | rfl | rfl <;> exact ⟨_, rfl⟩
  obtain ⟨w0, hw0⟩ := hw
  have hlen : (built nm pos pre).heap.length = wingsCreated pre := by
    have := created_runOps pre (newPlane nm pos)
    rw [show (newPlane nm pos).heap.length = 0 from rfl, zero_add] at this
    exact this
  have hb : built nm pos (pre ++ [.addWing name parent location side d]) =
      (PlaneOp.addWing name parent location side d).run (built nm pos pre) := by
    simp [built, runOps, List.foldl_append]
  rw [hb]
  simp only [PlaneOp.run, addWing_eq, hw0]
  cases targetOf (dictSet (built nm pos pre).wings name (built nm pos pre).heap.length) parent with
  | error e => exact ⟨w0, w0, rfl, by simp [← hlen], .inl rfl⟩
  | ok t => exact ⟨w0, _, rfl, by simp [← hlen], .inr ⟨t, rfl⟩⟩

theorem built_split (nm : String) (pos : Option V3) (a b : List PlaneOp) :
    built nm pos (a ++ b) = runOps (built nm pos a) b := by simp [built, runOps, List.foldl_append]

/-! ### C92 -/

/-- **C92, dimensions.** Whatever was called before and is called afterwards (including further wings under the same
name), the wing object of an accepted `add_wing` call consists of the segments its side asks for, and these have the
dimensions given in that call. -/
theorem C92_dimensions (nm : String) (pos : Option V3) (pre post : List PlaneOp) (name : String)
    (parent : Option String) (location side : String) (d : WingDims) (hs : ValidSide side) :
    ∃ w, (built nm pos (pre ++ .addWing name parent location side d :: post)).heap[wingsCreated pre]? = some w ∧
      w.segments.map (fun s => (s.name, s.side, s.n)) = declaredSegs (name, side, d.grid.getD 40) ∧
      ∀ s ∈ w.segments, s.Says d := by
  rw [show pre ++ PlaneOp.addWing name parent location side d :: post =
    (pre ++ [.addWing name parent location side d]) ++ post by simp, built_split]
  let P : Wing → Prop := fun w =>
    w.segments.map (fun s => (s.name, s.side, s.n)) = declaredSegs (name, side, d.grid.getD 40) ∧
      ∀ s ∈ w.segments, s.Says d
  have hmap : ∀ f : Seg → Seg, (∀ s, (f s).name = s.name ∧ (f s).side = s.side ∧ (f s).n = s.n) →
      (∀ s, s.Says d → (f s).Says d) → ∀ w, P w → P (w.mapSegs f) := by
    intro f h1 h2 w hP
    obtain ⟨a, b⟩ := hP
    refine ⟨?_, ?_⟩
    · rw [← a]
      cases w <;> simp [Wing.mapSegs, Wing.segments, h1]
    · intro s hsm
      obtain ⟨s0, hs0, rfl⟩ := mem_segments_mapSegs hsm
      exact h2 s0 (b s0 hs0)
  have h0 : ∃ w, (built nm pos (pre ++ [.addWing name parent location side d])).heap[wingsCreated pre]? = some w ∧ P w := by
    obtain ⟨w0, w, hw0, hw, hcase⟩ := fresh_wing nm pos pre name parent location side d hs
    have hP0 : P w0 := by
      rcases hs with rfl | rfl | rfl <;> (have := (Except.ok.inj hw0).symm; subst this)
      · refine ⟨rfl, ?_⟩
        intro s hsm
        rcases (by simpa [Wing.segments] using hsm) with rfl | rfl <;> constructor <;> rfl
      · refine ⟨rfl, ?_⟩
        intro s hsm
        obtain rfl := (by simpa [Wing.segments] using hsm)
        constructor <;> rfl
      · refine ⟨rfl, ?_⟩
        intro s hsm
        obtain rfl := (by simpa [Wing.segments] using hsm)
        constructor <;> rfl
    refine ⟨w, hw, ?_⟩
    rcases hcase with rfl | ⟨t, rfl⟩
    · exact hP0
    · exact hmap (·.connectTo t location) (fun s => ⟨rfl, rfl, rfl⟩) (fun s h => { h with }) w0 hP0
  refine heap_keeps (P := P) post ?_ h0
  intro op _
  cases op with
  | airfoil i name' e props =>
    intro _ a _
    apply hmap
    · intro s; simp only [Seg.setAirfoil]; split_ifs <;> exact ⟨rfl, rfl, rfl⟩
    · intro s h; simp only [Seg.setAirfoil]; split_ifs <;> exact { h with }
  | controlSurface i props =>
    intro _ c _
    exact hmap (fun s => { s with cs := c }) (fun s => ⟨rfl, rfl, rfl⟩) (fun s h => { h with })
  | _ => trivial

/-- which calls of `Airfoil(...)` succeed, and with what result -/
theorem mkAirfoil_iff (name : String) (q : AirfoilProps) :
    (q.Complete → ∃ a, mkAirfoil name q = .ok a ∧ a.Says name q) ∧
    (¬ q.Complete → ∃ e, mkAirfoil name q = .error e) := by
  unfold AirfoilProps.Complete mkAirfoil
  constructor
  · rintro (⟨h1, h2, h3, h4, h5, h6, h7, h8⟩ | ⟨h0, h1, h2, h3, h4, h5, h6, h7, h8, h9⟩)
    · obtain ⟨x1, e1⟩ := Option.isSome_iff_exists.1 h1
      obtain ⟨x2, e2⟩ := Option.isSome_iff_exists.1 h2
      obtain ⟨x3, e3⟩ := Option.isSome_iff_exists.1 h3
      obtain ⟨x4, e4⟩ := Option.isSome_iff_exists.1 h4
      obtain ⟨x5, e5⟩ := Option.isSome_iff_exists.1 h5
      obtain ⟨x6, e6⟩ := Option.isSome_iff_exists.1 h6
      obtain ⟨x7, e7⟩ := Option.isSome_iff_exists.1 h7
      obtain ⟨x8, e8⟩ := Option.isSome_iff_exists.1 h8
      rw [if_pos (by simp [AirfoilProps.truthy, e1])]
      refine ⟨_, by simp only [e1, e2, e3, e4, e5, e6, e7, e8, getKey, bind, Except.bind]; rfl, ?_⟩
      constructor <;> simp [e1, e2, e3, e4, e5, e6, e7, e8]
    · rw [if_neg (by simp [AirfoilProps.truthy, h0, h1, h2, h3, h4, h5, h6, h7, h8, h9])]
      refine ⟨_, rfl, ?_⟩
      constructor <;> simp [Airfoil.default, h1, h2, h3, h4, h5, h6, h7, h8]
  · intro h
    push Not at h
    obtain ⟨ha, hb⟩ := h
    by_cases ht : q.truthy = true
    · rw [if_pos ht]
      cases e1 : q.al0 <;> cases e2 : q.cla <;> cases e3 : q.clMax <;> cases e4 : q.cml0 <;> cases e5 : q.cma <;>
        cases e6 : q.cd0 <;> cases e7 : q.cd1 <;> cases e8 : q.cd2 <;>
        first
        | exact ⟨_, rfl⟩
        | (exfalso; revert ha; simp [e1, e2, e3, e4, e5, e6, e7, e8])
    · exfalso
      simp only [AirfoilProps.truthy, Bool.or_eq_true, not_or, Option.isSome_iff_ne_none, ne_eq, not_not,
        Bool.not_eq_true] at ht
      obtain ⟨⟨⟨⟨⟨⟨⟨⟨⟨t0, t1⟩, t2⟩, t3⟩, t4⟩, t5⟩, t6⟩, t7⟩, t8⟩, t9⟩ := ht
      exact hb t0 t1 t2 t3 t4 t5 t6 t7 t8 t9

/-- the airfoil at an end -/
def Seg.airfoilAt (s : Seg) (e : String) : Airfoil := if e = "root" then s.root else s.tip

theorem keeps_airfoil (id : ℕ) (e : String) (he : e = "root" ∨ e = "tip") (Q : Airfoil → Prop) (op : PlaneOp)
    (hop : ¬ SetsAirfoil id e op) : CallKeeps id (fun w => ∀ s ∈ w.segments, Q (s.airfoilAt e)) op := by
  cases op with
  | airfoil i name e' props =>
    intro hi a ha w hP s hs
    obtain ⟨s0, hs0, rfl⟩ := mem_segments_mapSegs hs
    have hc : props.Complete := by
      by_contra hc
      obtain ⟨er, her⟩ := (mkAirfoil_iff name props).2 hc
      rw [ha] at her; cases her
    have h1 : e' ≠ e ∧ e' ≠ "both" := by
      constructor <;> intro h' <;> exact hop ⟨name, e', props, by rw [hi], by tauto, hc⟩
    have : (s0.setAirfoil e' a).airfoilAt e = s0.airfoilAt e := by
      unfold Seg.setAirfoil Seg.airfoilAt
      rw [if_neg h1.2]
      rcases he with rfl | rfl
      · rw [if_neg h1.1]
        by_cases ht : e' = "tip" <;> simp [ht]
      · by_cases hr : e' = "root" <;> simp [hr, h1.1]
    rw [this]
    exact hP s0 hs0
  | controlSurface i props =>
    intro hi c _ w hP s hs
    obtain ⟨s0, hs0, rfl⟩ := mem_segments_mapSegs hs
    exact hP s0 hs0
  | _ => trivial

/-- **C92, airfoils.** The root (tip) airfoil of a wing is the one given in the last successful call of `airfoil` for
that wing and that end or for both ends ... -/
theorem C92_airfoil (nm : String) (pos : Option V3) (pre post : List PlaneOp) (id : ℕ) (name e' e : String)
    (props : AirfoilProps) (he : e = "root" ∨ e = "tip") (he' : e' = e ∨ e' = "both") (hc : props.Complete)
    (hid : id < wingsCreated pre) (hpost : ∀ op ∈ post, ¬ SetsAirfoil id e op) :
    ∃ w, (built nm pos (pre ++ .airfoil id name e' props :: post)).heap[id]? = some w ∧
      ∀ s ∈ w.segments, (if e = "root" then s.root else s.tip).Says name props := by
  rw [show pre ++ PlaneOp.airfoil id name e' props :: post = (pre ++ [.airfoil id name e' props]) ++ post by simp,
    built_split]
  refine heap_keeps (P := fun w => ∀ s ∈ w.segments, (s.airfoilAt e).Says name props) post
    (fun op ho => keeps_airfoil id e he (·.Says name props) op (hpost op ho)) ?_
  rw [built_split]
  have hlen : (built nm pos pre).heap.length = wingsCreated pre := by
    have := created_runOps pre (newPlane nm pos)
    rw [show (newPlane nm pos).heap.length = 0 from rfl, zero_add] at this
    exact this
  obtain ⟨a, ha, hsays⟩ := (mkAirfoil_iff name props).1 hc
  simp only [runOps, List.foldl_cons, List.foldl_nil, PlaneOp.run, Plane.wingAirfoil, ha, List.getElem?_modify]
  have hget : (built nm pos pre).heap[id]? = some ((built nm pos pre).heap[id]'(by omega)) :=
    List.getElem?_eq_getElem _
  rw [hget]
  refine ⟨_, by simp; rfl, ?_⟩
  intro s hs
  obtain ⟨s0, hs0, rfl⟩ := mem_segments_mapSegs hs
  have : (s0.setAirfoil e' a).airfoilAt e = a := by
    unfold Seg.setAirfoil Seg.airfoilAt
    rcases he with rfl | rfl <;> rcases he' with rfl | rfl <;> simp
  rw [this]
  exact hsays

/-- ... and the NACA 2412 if there was no such call. -/
theorem C92_airfoil_default (nm : String) (pos : Option V3) (pre post : List PlaneOp) (name : String)
    (parent : Option String) (location side e : String) (d : WingDims) (hs : ValidSide side)
    (he : e = "root" ∨ e = "tip") (hpost : ∀ op ∈ post, ¬ SetsAirfoil (wingsCreated pre) e op) :
    ∃ w, (built nm pos (pre ++ .addWing name parent location side d :: post)).heap[wingsCreated pre]? = some w ∧
      ∀ s ∈ w.segments, (if e = "root" then s.root else s.tip).Says "NACA2412" {} := by
  rw [show pre ++ PlaneOp.addWing name parent location side d :: post =
    (pre ++ [.addWing name parent location side d]) ++ post by simp, built_split]
  refine heap_keeps (P := fun w => ∀ s ∈ w.segments, (s.airfoilAt e).Says "NACA2412" {}) post
    (fun op ho => keeps_airfoil _ e he (·.Says "NACA2412" {}) op (hpost op ho)) ?_
  obtain ⟨w0, w, hw0, hw, hcase⟩ := fresh_wing nm pos pre name parent location side d hs
  refine ⟨w, hw, ?_⟩
  have hd : (Airfoil.default "NACA2412").Says "NACA2412" {} := by constructor <;> rfl
  have h0 : ∀ s ∈ w0.segments, (s.airfoilAt e).Says "NACA2412" {} := by
    intro s hsm
    have : s.airfoilAt e = Airfoil.default "NACA2412" := by
      rcases hs with rfl | rfl | rfl <;> (have := (Except.ok.inj hw0).symm; subst this)
      · rcases (by simpa [Wing.segments] using hsm) with rfl | rfl <;> rcases he with rfl | rfl <;> rfl
      · obtain rfl := (by simpa [Wing.segments] using hsm)
        rcases he with rfl | rfl <;> rfl
      · obtain rfl := (by simpa [Wing.segments] using hsm)
        rcases he with rfl | rfl <;> rfl
    rw [this]; exact hd
  rcases hcase with rfl | ⟨t, rfl⟩
  · exact h0
  · intro s hsm
    obtain ⟨s0, hs0, rfl⟩ := mem_segments_mapSegs hsm
    exact h0 s0 hs0

/-- which calls of `ControlSurface(...)` succeed, and with what result -/
theorem mkCtrlSurf_iff (q : CtrlSurfProps) :
    (q.Complete → ∃ c, mkCtrlSurf q = .ok c ∧ c.Says q) ∧ (¬ q.Complete → ∃ e, mkCtrlSurf q = .error e) := by
  unfold CtrlSurfProps.Complete mkCtrlSurf
  constructor
  · rintro (⟨h1, h2, h3⟩ | ⟨h1, h2, h3, h4, h5, h6⟩)
    · obtain ⟨x1, e1⟩ := Option.isSome_iff_exists.1 h1
      obtain ⟨x2, e2⟩ := Option.isSome_iff_exists.1 h2
      obtain ⟨x3, e3⟩ := Option.isSome_iff_exists.1 h3
      rw [if_pos (by simp [CtrlSurfProps.truthy, e1])]
      refine ⟨_, by simp only [e1, e2, e3, getKey, bind, Except.bind]; rfl, ?_⟩
      cases x2 <;> constructor <;> simp [e1, e2, e3, PctChord.atRoot, PctChord.atTip]
    · rw [if_neg (by simp [CtrlSurfProps.truthy, h1, h2, h3, h4, h5, h6])]
      refine ⟨_, rfl, ?_⟩
      constructor <;> simp [h1, h2, h3, h4]
  · intro h
    push Not at h
    obtain ⟨ha, hb⟩ := h
    by_cases ht : q.truthy = true
    · rw [if_pos ht]
      cases e1 : q.percentSpan <;> cases e2 : q.percentChord <;> cases e3 : q.mix <;>
        first
        | exact ⟨_, rfl⟩
        | (exfalso; revert ha; simp [e1, e2, e3])
    · exfalso
      simp only [CtrlSurfProps.truthy, Bool.or_eq_true, not_or, Option.isSome_iff_ne_none, ne_eq, not_not,
        Bool.not_eq_true] at ht
      obtain ⟨⟨⟨⟨⟨t1, t2⟩, t3⟩, t4⟩, t5⟩, t6⟩ := ht
      exact hb t1 t2 t3 t4 t5 t6

theorem keeps_control (id : ℕ) (Q : CtrlSurf → Prop) (op : PlaneOp) (hop : ¬ SetsControl id op) :
    CallKeeps id (fun w => ∀ s ∈ w.segments, Q s.cs) op := by
  cases op with
  | airfoil i name e' props =>
    intro hi a ha w hP s hs
    obtain ⟨s0, hs0, rfl⟩ := mem_segments_mapSegs hs
    have : (s0.setAirfoil e' a).cs = s0.cs := by unfold Seg.setAirfoil; split_ifs <;> rfl
    rw [this]
    exact hP s0 hs0
  | controlSurface i props =>
    intro hi c hc w hP s hs
    exfalso
    refine hop ⟨props, by rw [hi], ?_⟩
    by_contra hcon
    obtain ⟨er, her⟩ := (mkCtrlSurf_iff props).2 hcon
    rw [hc] at her; cases her
  | _ => trivial

/-- **C92, control surface.** The control surface of a wing is the one given in the last successful call of
`control_surface` on it ... -/
theorem C92_control (nm : String) (pos : Option V3) (pre post : List PlaneOp) (id : ℕ) (props : CtrlSurfProps)
    (hc : props.Complete) (hid : id < wingsCreated pre) (hpost : ∀ op ∈ post, ¬ SetsControl id op) :
    ∃ w, (built nm pos (pre ++ .controlSurface id props :: post)).heap[id]? = some w ∧
      ∀ s ∈ w.segments, s.cs.Says props := by
  rw [show pre ++ PlaneOp.controlSurface id props :: post = (pre ++ [.controlSurface id props]) ++ post by simp,
    built_split]
  refine heap_keeps (P := fun w => ∀ s ∈ w.segments, s.cs.Says props) post
    (fun op ho => keeps_control id (·.Says props) op (hpost op ho)) ?_
  rw [built_split]
  have hlen : (built nm pos pre).heap.length = wingsCreated pre := by
    have := created_runOps pre (newPlane nm pos)
    rw [show (newPlane nm pos).heap.length = 0 from rfl, zero_add] at this
    exact this
  obtain ⟨c, hcs, hsays⟩ := (mkCtrlSurf_iff props).1 hc
  simp only [runOps, List.foldl_cons, List.foldl_nil, PlaneOp.run, Plane.wingCtrl, hcs, List.getElem?_modify]
  have hget : (built nm pos pre).heap[id]? = some ((built nm pos pre).heap[id]'(by omega)) :=
    List.getElem?_eq_getElem _
  rw [hget]
  refine ⟨_, by simp; rfl, ?_⟩
  intro s hs
  obtain ⟨s0, hs0, rfl⟩ := mem_segments_mapSegs hs
  exact hsays

/-- ... and none (no chord, no mixing) if there was no such call. -/
theorem C92_control_default (nm : String) (pos : Option V3) (pre post : List PlaneOp) (name : String)
    (parent : Option String) (location side : String) (d : WingDims) (hs : ValidSide side)
    (hpost : ∀ op ∈ post, ¬ SetsControl (wingsCreated pre) op) :
    ∃ w, (built nm pos (pre ++ .addWing name parent location side d :: post)).heap[wingsCreated pre]? = some w ∧
      ∀ s ∈ w.segments, s.cs.Says {} := by
  rw [show pre ++ PlaneOp.addWing name parent location side d :: post =
    (pre ++ [.addWing name parent location side d]) ++ post by simp, built_split]
  refine heap_keeps (P := fun w => ∀ s ∈ w.segments, s.cs.Says {}) post
    (fun op ho => keeps_control _ (·.Says {}) op (hpost op ho)) ?_
  obtain ⟨w0, w, hw0, hw, hcase⟩ := fresh_wing nm pos pre name parent location side d hs
  refine ⟨w, hw, ?_⟩
  have h0 : ∀ s ∈ w0.segments, s.cs.Says {} := by
    intro s hsm
    have hcs : s.cs = {} := by
      rcases hs with rfl | rfl | rfl <;> (have := (Except.ok.inj hw0).symm; subst this)
      · rcases (by simpa [Wing.segments] using hsm) with rfl | rfl <;> rfl
      · obtain rfl := (by simpa [Wing.segments] using hsm)
        rfl
      · obtain rfl := (by simpa [Wing.segments] using hsm)
        rfl
    rw [hcs]
    constructor <;> rfl
  rcases hcase with rfl | ⟨t, rfl⟩
  · exact h0
  · intro s hsm
    obtain ⟨s0, hs0, rfl⟩ := mem_segments_mapSegs hsm
    exact h0 s0 hs0

-- a wing that gets its airfoil before, and its control surface after, another wing is added under the same name
example : ValidSide "both" ∧ wingsCreated [.addWing "w" none "tip" "both" {}] = 1 ∧
    (∀ op ∈ [PlaneOp.addWing "w" none "tip" "left" {}, .airfoil 0 "b" "tip" {}], ¬ SetsAirfoil 0 "root" op) ∧
    (∀ op ∈ [PlaneOp.addWing "w" none "tip" "left" {}, .airfoil 0 "b" "tip" {}], ¬ SetsControl 0 op) ∧
    AirfoilProps.Complete {} := by
  refine ⟨.inl rfl, rfl, ?_, ?_, .inr ⟨rfl, rfl, rfl, rfl, rfl, rfl, rfl, rfl, rfl, rfl⟩⟩
  · intro op hop
    rcases (by simpa using hop) with rfl | rfl
    · rintro ⟨_, _, _, h, _⟩; cases h
    · rintro ⟨_, _, _, h, h', _⟩
      cases h
      rcases h' with h' | h' <;> exact absurd h' (by decide)
  · intro op hop
    rcases (by simpa using hop) with rfl | rfl
    · rintro ⟨_, h, _⟩; cases h
    · rintro ⟨_, h, _⟩; cases h

end Verif
