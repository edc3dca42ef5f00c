import Verif.Lemmas.Geometry

/-!
# C01, C05, C06: what the plane-building API records
-/

namespace Verif
open V3

/-- (name, side, number of sections) of the segments of a wing -/
def segView (s : Seg) : String × Side × ℕ := (s.name, s.side, s.n)

private theorem view_mapSegs {f : Seg → Seg} (hf : ∀ s, segView (f s) = segView s) (w : Wing) :
    (w.mapSegs f).segments.map segView = w.segments.map segView := by
  cases w <;> simp [Wing.mapSegs, Wing.segments, hf]

private theorem mkWing_view {name side : String} {d : WingDims} {w : Wing} (h : mkWing name side d = .ok w) :
    ValidSide side ∧ w.segments.map segView = declaredSegs (name, side, d.grid.getD 40) := by
  unfold mkWing at h
  split at h
  · rename_i hs; have := (Except.ok.inj h).symm; subst this; subst hs
    exact ⟨.inl rfl, rfl⟩
  split at h
  · rename_i hs; have := (Except.ok.inj h).symm; subst this; subst hs
    exact ⟨.inr (.inr rfl), rfl⟩
  split at h
  · rename_i hs; have := (Except.ok.inj h).symm; subst this; subst hs
    exact ⟨.inr (.inl rfl), rfl⟩
  · exact absurd h (by simp)

private theorem mkWing_error {name side : String} {d : WingDims} {e : PyErr} (h : mkWing name side d = .error e) :
    ¬ ValidSide side := by
  unfold mkWing at h
  rintro (rfl | rfl | rfl) <;> simp at h

/-- the dictionary of the plane and the declared wings agree -/
private def Agree (p : Plane) (acc : List (String × String × ℕ)) : Prop :=
  p.wings.map (fun kv => (kv.1, (p.heap[kv.2]?).map fun w => w.segments.map segView)) =
    acc.map fun e => (e.1, some (declaredSegs (e.1, e.2)))

/-- the effect of one call on the declared wings -/
private def declStep (acc : List (String × String × ℕ)) (op : PlaneOp) : List (String × String × ℕ) :=
  match op with
    | .addWing name _ _ side d => if ValidSide side then dictSet acc name (side, d.grid.getD 40) else acc
    | _ => acc

private theorem agree_modify {p : Plane} {acc : List (String × String × ℕ)} (h : Agree p acc) {f : Seg → Seg}
    (hf : Harmless f) (id : ℕ) : Agree { p with heap := p.heap.modify id (·.mapSegs f) } acc := by
  unfold Agree at h ⊢
  rw [← h]
  apply List.map_congr_left
  intro kv _
  simp only [List.getElem?_modify]
  congr 1
  cases p.heap[kv.2]? with
  | none => rfl
  | some w =>
    simp only [Option.map_eq_map, Option.map_some]
    split
    · rw [view_mapSegs (fun s => by simp [segView, hf.name, hf.side, hf.n])]
    · rfl

private theorem agree_step {p : Plane} (hp : PlaneInv p) {acc : List (String × String × ℕ)} (h : Agree p acc)
    (op : PlaneOp) : Agree (op.run p) (declStep acc op) := by
  cases op with
  | addWing name parent location side d =>
    simp only [PlaneOp.run, declStep]
    rcases addWing_cases p name parent location side d with ⟨⟨e, he⟩, h2⟩ | ⟨w, w', hw, h2, hcase⟩
    · rw [h2, if_neg (mkWing_error he)]; exact h
    · obtain ⟨hv, hview⟩ := mkWing_view hw
      have hview' : w'.segments.map segView = declaredSegs (name, side, d.grid.getD 40) := by
        rcases hcase with ⟨_, rfl⟩ | ⟨t, _, rfl⟩
        · exact hview
        · rw [view_mapSegs (f := (·.connectTo t location)) (fun s => rfl), hview]
      rw [h2, if_pos hv]
      unfold Agree at h ⊢
      simp only
      rw [dictSet_map (fun (_ : String) (i : ℕ) => ((p.heap ++ [w'])[i]?).map fun w : Wing => w.segments.map segView),
        dictSet_map (fun (k : String) (e : String × ℕ) => some (declaredSegs (k, e)))]
      have h1 : p.wings.map (fun kv => (kv.1, ((p.heap ++ [w'])[kv.2]?).map fun w => w.segments.map segView)) =
          p.wings.map (fun kv => (kv.1, (p.heap[kv.2]?).map fun w => w.segments.map segView)) := by
        apply List.map_congr_left
        intro kv hkv
        rw [List.getElem?_append_left (hp.ids kv hkv)]
      rw [h1, h]
      simp [hview']
  | airfoil id name e props =>
    simp only [PlaneOp.run, Plane.wingAirfoil, declStep]
    split
    · exact h
    · exact agree_modify h (harmless_setAirfoil e _) id
  | controlSurface id props =>
    simp only [PlaneOp.run, Plane.wingCtrl, declStep]
    split
    · exact h
    · exact agree_modify h (harmless_cs _) id
  | addProp name d => exact h
  | propAirfoil name af props =>
    simp only [PlaneOp.run, Plane.propAirfoil]
    split
    · exact h
    · split <;> exact h
  | cgLocation x y z => exact h
  | setRefLengths a b => exact h

private theorem agree_run {p : Plane} (hp : PlaneInv p) (ops : List PlaneOp) :
    ∀ {acc : List (String × String × ℕ)}, Agree p acc → Agree (runOps p ops) (ops.foldl declStep acc) := by
  induction ops generalizing p with
  | nil => intro acc h; exact h
  | cons op t ih => intro acc h; exact ih (hp.run op) (agree_step hp h op)

private theorem eraseDups_snoc (l : List String) (k : String) :
    (l ++ [k]).eraseDups = if k ∈ l then l.eraseDups else l.eraseDups ++ [k] := by
  rw [List.eraseDups_append]
  split_ifs with h
  · simp [List.removeAll, h]
  · simp [List.removeAll, h, List.eraseDups_cons]

private theorem nodup_eraseDups (l : List String) : l.eraseDups.Nodup := by
  induction l using List.reverseRecOn with
  | nil => simp
  | append_singleton l k ih =>
    rw [eraseDups_snoc]
    split_ifs with h
    · exact ih
    · rw [List.nodup_append]
      refine ⟨ih, by simp, ?_⟩
      simp only [List.mem_eraseDups, List.mem_singleton]
      rintro a ha b rfl rfl
      exact h ha

/-- the dictionary after one more assignment -/
private theorem dictSet_spec {α : Type} (l : List (String × α)) (k : String) (v : α) :
    dictSet ((l.map (·.1)).eraseDups.filterMap fun nm => l.reverse.find? (·.1 = nm)) k v =
      (((l ++ [(k, v)]).map (·.1)).eraseDups.filterMap fun nm => (l ++ [(k, v)]).reverse.find? (·.1 = nm)) := by
  have hfind : ∀ nm ∈ (l.map (·.1)).eraseDups, ∃ w, l.reverse.find? (·.1 = nm) = some (nm, w) := by
    intro nm hnm
    rw [List.mem_eraseDups] at hnm
    obtain ⟨e, he, rfl⟩ := List.mem_map.1 hnm
    rcases hf : l.reverse.find? (·.1 = e.1) with _ | x
    · rw [List.find?_eq_none] at hf
      exact absurd (decide_eq_true rfl) (hf e (by simpa using he))
    · have := List.find?_some hf
      simp only [decide_eq_true_eq] at this
      exact ⟨x.2, by rw [hf, ← this]⟩
  -- entries for the names `ns`
  have key : ∀ ns : List String, ns.Nodup → (∀ nm ∈ ns, ∃ w, l.reverse.find? (·.1 = nm) = some (nm, w)) →
      dictSet (ns.filterMap fun nm => l.reverse.find? (·.1 = nm)) k v =
        (if k ∈ ns then ns else ns ++ [k]).filterMap fun nm => (l ++ [(k, v)]).reverse.find? (·.1 = nm) := by
    intro ns
    have hnew : ∀ nm, (l ++ [(k, v)]).reverse.find? (·.1 = nm) = if k = nm then some (k, v) else l.reverse.find? (·.1 = nm) := by
      intro nm
      rw [List.reverse_append, List.reverse_singleton, List.singleton_append, List.find?_cons]
      by_cases h : k = nm <;> simp [h]
    have hold : ∀ ns : List String, k ∉ ns → (ns.filterMap fun nm => (l ++ [(k, v)]).reverse.find? (·.1 = nm)) =
        ns.filterMap fun nm => l.reverse.find? (·.1 = nm) := by
      intro ns hk
      refine List.filterMap_congr fun nm hnm => ?_
      rw [hnew, if_neg (by rintro rfl; exact hk hnm)]
    induction ns with
    | nil => intro _ _; simp [dictSet]
    | cons a t ih =>
      intro hnd hw
      obtain ⟨w, hw1⟩ := hw a (by simp)
      rw [List.nodup_cons] at hnd
      rw [List.filterMap_cons, hw1]
      simp only [dictSet]
      by_cases ha : a = k
      · subst ha
        rw [if_pos rfl, if_pos (by simp), List.filterMap_cons, hnew, if_pos rfl, hold t hnd.1]
      · rw [if_neg ha, ih hnd.2 fun nm h => hw nm (by simp [h])]
        have e : (if k ∈ a :: t then a :: t else a :: t ++ [k]) = a :: (if k ∈ t then t else t ++ [k]) := by
          by_cases h : k ∈ t
          · rw [if_pos h, if_pos (by simp [h])]
          · rw [if_neg h, if_neg (by simp [h, Ne.symm ha])]; rfl
        rw [e, List.filterMap_cons, hnew, if_neg (Ne.symm ha), hw1]
  rw [key _ (nodup_eraseDups _) hfind, List.map_append, List.map_singleton, eraseDups_snoc]
  congr 1
  simp only [List.mem_eraseDups]

private theorem declared_eq (ops : List PlaneOp) : declared ops = ops.foldl declStep [] := by
  induction ops using List.reverseRecOn with
  | nil => rfl
  | append_singleton ops op ih =>
    rw [List.foldl_append, ← ih]
    have hskip : ∀ l : List PlaneOp, addCalls (l ++ [op]) = addCalls l → declared (l ++ [op]) = declared l := by
      intro l h; unfold declared; rw [h]
    cases op with
    | addWing name parent location side d =>
      by_cases hs : ValidSide side
      · have e : addCalls (ops ++ [.addWing name parent location side d]) = addCalls ops ++ [(name, side, d.grid.getD 40)] := by
          simp [addCalls, hs]
        simp only [List.foldl_cons, List.foldl_nil, declStep, if_pos hs]
        unfold declared
        rw [e, dictSet_spec]
      · simp only [List.foldl_cons, List.foldl_nil, declStep, if_neg hs]
        exact hskip _ (by simp [addCalls, hs])
    | _ => exact hskip _ (by simp [addCalls])

/-- **C01.** After every sequence of API calls (including failing ones and re-used names), the segments of the plane are
exactly those of the declared wings – for every name its last accepted `add_wing`, in order of first use, left segment
before right – and `get_num_sections()` is their total number of sections. -/
theorem C01_section_count (name : String) (pos : Option V3) (ops : List PlaneOp) :
    (built name pos ops).segments.map segView = (declared ops).flatMap declaredSegs ∧
    (built name pos ops).numSections = ((built name pos ops).segments.map (·.n)).sum ∧
    (built name pos ops).numSections = (((declared ops).flatMap declaredSegs).map (·.2.2)).sum := by
  have hA : Agree (built name pos ops) (declared ops) := by
    rw [declared_eq]
    exact agree_run (newPlane_inv name pos) ops (by simp [Agree, newPlane])
  have key : ∀ (H : List Wing) (ws : List (String × ℕ)) (acc : List (String × String × ℕ)),
      ws.map (fun kv => (kv.1, (H[kv.2]?).map fun w => w.segments.map segView)) =
        acc.map (fun e => (e.1, some (declaredSegs (e.1, e.2)))) →
      (ws.filterMap fun kv => H[kv.2]?).flatMap (fun w => w.segments.map segView) = acc.flatMap declaredSegs := by
    intro H ws
    induction ws with
    | nil => intro acc h; cases acc with
      | nil => rfl
      | cons _ _ => simp at h
    | cons kv t ih =>
      intro acc h
      cases acc with
      | nil => simp at h
      | cons e acc =>
        simp only [List.map_cons, List.cons.injEq, Prod.mk.injEq] at h
        obtain ⟨⟨_, h1⟩, h2⟩ := h
        cases hk : H[kv.2]? with
        | none => rw [hk] at h1; simp at h1
        | some w =>
          rw [hk] at h1
          simp only [Option.map_some, Option.some.injEq] at h1
          rw [List.filterMap_cons, hk]
          simp only [List.flatMap_cons]
          rw [h1, ih acc h2]
  have h1 : (built name pos ops).segments.map segView = (declared ops).flatMap declaredSegs := by
    rw [segments_eq, List.map_flatMap]
    exact key _ _ _ hA
  refine ⟨h1, numSections_eq _, ?_⟩
  rw [numSections_eq, ← h1, List.map_map]
  rfl

/-- a re-used name and a rejected side: one wing with 2 × 7 sections, one with 3 -/
noncomputable example : (built "p" none
    [.addWing "Main" none "tip" "both" { grid := some 5 }, .addWing "Fin" (some "nowhere") "tip" "left" { grid := some 3 },
      .addWing "Bad" none "tip" "up" {}, .addWing "Main" none "tip" "both" { grid := some 7 }]).segments.map segView =
    [("left_Main", .left, 7), ("right_Main", .right, 7), ("left_Fin", .left, 3)] := by
  rw [(C01_section_count _ _ _).1]
  decide

/-! ### C05 -/

/-- Coordinate after a sequence of assignments: the last value passed, or the old one. -/
def lastPassed (old : ℝ) (vals : List (Option ℝ)) : ℝ := vals.foldl (fun a v => v.getD a) old

private theorem cg_fold (p : Plane) (calls : List (Option ℝ × Option ℝ × Option ℝ))
    (h : ∀ c ∈ calls, c.1 ≠ some 0 ∧ c.2.1 ≠ some 0 ∧ c.2.2 ≠ some 0) :
    (runOps p (calls.map fun c => .cgLocation c.1 c.2.1 c.2.2)).cg =
      ⟨lastPassed p.cg.x (calls.map (·.1)), lastPassed p.cg.y (calls.map (·.2.1)), lastPassed p.cg.z (calls.map (·.2.2))⟩ := by
  induction calls generalizing p with
  | nil => rfl
  | cons c t ih =>
    have hset : ∀ (old : ℝ) (v : Option ℝ), v ≠ some 0 → Plane.setCoord old v = v.getD old := by
      intro old v hv
      cases v with
      | none => rfl
      | some x => simp only [Plane.setCoord, Option.getD_some]; rw [if_neg (by simpa using hv)]
    obtain ⟨h1, h2, h3⟩ := h c (by simp)
    have := ih (p.cgLocation c.1 c.2.1 c.2.2) (fun c hc => h c (by simp [hc]))
    simp only [List.map_cons, runOps, List.foldl_cons, PlaneOp.run] at this ⊢
    rw [this]
    simp [Plane.cgLocation, lastPassed, hset _ _ h1, hset _ _ h2, hset _ _ h3]

/-- **C05 (partial).** As long as no coordinate passed is 0, after any sequence of `cg_location` calls every coordinate
has the last value that was passed for it (or its old value).  Missing: the value 0, see `C05_refuted`. -/
theorem C05_cg_partial (p : Plane) (calls : List (Option ℝ × Option ℝ × Option ℝ))
    (h : ∀ c ∈ calls, c.1 ≠ some 0 ∧ c.2.1 ≠ some 0 ∧ c.2.2 ≠ some 0) :
    let q := runOps p (calls.map fun c => .cgLocation c.1 c.2.1 c.2.2)
    q.cg.x = lastPassed p.cg.x (calls.map (·.1)) ∧ q.cg.y = lastPassed p.cg.y (calls.map (·.2.1)) ∧
      q.cg.z = lastPassed p.cg.z (calls.map (·.2.2)) := by
  simp only [cg_fold p calls h, and_self]

/-- **C05 on a fresh plane.** The first call on a new plane does what it says, zeros included (this is the only use the
input file reader makes of it). -/
theorem C05_first_call (name : String) (pos : Option V3) (x y z : ℝ) :
    ((newPlane name pos).cgLocation (some x) (some y) (some z)).cg = ⟨x, y, z⟩ := by
  simp only [Plane.cgLocation, Plane.setCoord, newPlane]
  ext <;> simp <;> intro h <;> exact h.symm

/-- **C05 fails for the value 0.** For every non-zero old coordinate, `cg_location(x_coord=0)` leaves the old value. -/
theorem C05_refuted (p : Plane) (hp : p.cg.x ≠ 0) : (p.cgLocation (some 0) none none).cg.x ≠ 0 := by
  simpa [Plane.cgLocation, Plane.setCoord] using hp

example : (built "p" none [.cgLocation (some 2) none none]).cg.x ≠ 0 := by
  simp [built, runOps, PlaneOp.run, Plane.cgLocation, Plane.setCoord, newPlane]

/-! ### C06 -/

/-- what the mix dictionary says about a channel -/
noncomputable def Mix.says (v : Option ℝ) : ℝ := match v with
  | some x => x
  | none => 0

/-- the sections of the wings in the heap get their mixing from `mixFor` of their control surface -/
def Seg.mix (s : Seg) : ℝ × ℝ × ℝ × ℝ := s.cs.mixFor s.side

/-- **C06.** After `wing.control_surface(mix=...)` on any wing of any plane, the right segment reports the dictionary's
values (0 for absent channels, further entries ignored), and the left segment reports minus aileron, elevator, minus
rudder, flap. -/
theorem C06_mixing (name : String) (pos : Option V3) (ops : List PlaneOp) (id : ℕ) (props : CtrlSurfProps) (m : Mix)
    (hm : props.mix = some m) (hok : ((built name pos ops).wingCtrl id props).1 = .ok ())
    (w : Wing) (hw : ((built name pos ops).wingCtrl id props).2.heap[id]? = some w) (s : Seg) (hs : s ∈ w.segments) :
    (s.side = .right → s.mix = (Mix.says m.aileron, Mix.says m.elevator, Mix.says m.rudder, Mix.says m.flap)) ∧
    (s.side = .left → s.mix = (-Mix.says m.aileron, Mix.says m.elevator, -Mix.says m.rudder, Mix.says m.flap)) := by
  simp only [Plane.wingCtrl] at hok hw
  cases hc : mkCtrlSurf props with
  | error e => rw [hc] at hok; simp at hok
  | ok c =>
    rw [hc] at hw
    simp only [List.getElem?_modify] at hw
    cases h0 : (built name pos ops).heap[id]? with
    | none => rw [h0] at hw; simp at hw
    | some w0 =>
      rw [h0] at hw
      simp at hw
      subst hw
      obtain ⟨s0, _, rfl⟩ := mem_segments_mapSegs hs
      have hcm : c.aileron = m.aileron ∧ c.elevator = m.elevator ∧ c.rudder = m.rudder ∧ c.flap = m.flap := by
        unfold mkCtrlSurf at hc
        rw [if_pos (by simp [CtrlSurfProps.truthy, hm])] at hc
        simp only [bind, Except.bind, hm] at hc
        cases h1 : props.percentSpan <;> rw [h1] at hc <;> simp [getKey] at hc
        cases h2 : props.percentChord <;> rw [h2] at hc <;> simp at hc
        have := (Except.ok.inj hc).symm
        subst this
        exact ⟨rfl, rfl, rfl, rfl⟩
      obtain ⟨h1, h2, h3, h4⟩ := hcm
      constructor <;> intro hside <;> simp only at hside <;>
        simp only [Seg.mix, CtrlSurf.mixFor, hside, h1, h2, h3, h4, Mix.says] <;>
        cases m.aileron <;> cases m.elevator <;> cases m.rudder <;> cases m.flap <;> simp

/-- a two-sided wing with an aileron/elevator mix -/
noncomputable example : ∃ w, ((built "p" none [.addWing "Main" none "tip" "both" {}]).wingCtrl 0
      { percentSpan := some (0.5, 1), percentChord := some (.single 0.2)
        mix := some { aileron := some 1, elevator := some 2 } }).2.heap[0]? = some w ∧
    w.segments.map Seg.mix = [((-1 : ℝ), (2 : ℝ), (0 : ℝ), (0 : ℝ)), (1, 2, 0, 0)] := by
  refine ⟨_, rfl, ?_⟩
  simp [mkCtrlSurf, Wing.mapSegs, Wing.segments, Seg.mix, CtrlSurf.mixFor, Seg.connectTo, mkSeg]

end Verif
