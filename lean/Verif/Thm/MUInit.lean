import Verif.Model.MUInit
import Verif.Thm.GridExists
import Verif.Thm.InputFile
import Verif.Examples.UnitPlane

/-!
# Construction of `MachUp` objects (C08, C58)
-/

namespace Verif
open V3

variable {PM : Type} {mkPM : PropGeom → V3 → Option String → Option (List V3) → Except PyErr PM}

theorem inferLat_spec (segs : List Seg) :
    0 ≤ inferLat segs ∧ (∀ s ∈ segs, 2 * s.span ≤ inferLat segs) ∧
    (inferLat segs = 0 ∨ ∃ s ∈ segs, inferLat segs = 2 * s.span) := by
  have h : ∀ (l : List Seg) (m : ℝ),
      m ≤ l.foldl (fun m s => if 2 * s.span > m then 2 * s.span else m) m ∧
      (∀ s ∈ l, 2 * s.span ≤ l.foldl (fun m s => if 2 * s.span > m then 2 * s.span else m) m) ∧
      (l.foldl (fun m s => if 2 * s.span > m then 2 * s.span else m) m = m ∨
        ∃ s ∈ l, l.foldl (fun m s => if 2 * s.span > m then 2 * s.span else m) m = 2 * s.span) := by
    intro l
    induction l with
    | nil => intro m; simp
    | cons a l ih =>
      intro m
      simp only [List.foldl_cons, List.mem_cons, forall_eq_or_imp, exists_eq_or_imp]
      obtain ⟨h1, h2, h3⟩ := ih (if 2 * a.span > m then 2 * a.span else m)
      split_ifs at h1 h2 h3 ⊢ with hc
      · refine ⟨by linarith, ⟨h1, h2⟩, ?_⟩
        rcases h3 with h3 | h3
        · exact .inr (.inl h3)
        · exact .inr (.inr h3)
      · refine ⟨h1, ⟨by linarith, h2⟩, ?_⟩
        rcases h3 with h3 | h3
        · exact .inl h3
        · exact .inr (.inr h3)
  exact h segs 0

theorem safeDiv_ok {a b c : ℝ} (h : safeDiv a b = .ok c) : b ≠ 0 ∧ c = a / b := by
  unfold safeDiv at h
  split_ifs at h with hb
  cases h
  exact ⟨hb, rfl⟩

/-- **C58.** Whenever a `MachUp` object is constructed for a plane with wings, given reference lengths are kept, an omitted
one is such that the product of the two is the reference area, and if both are omitted the lateral one is twice the
largest semispan. -/
theorem C58_reference_lengths {p : Plane} {o : MachUpObj PM} (h : mkMachUp mkPM p = .ok o) (hw : p.wings ≠ []) :
    ∃ W, o.wing = some W ∧ mkGrid p true = .ok W.grid ∧
      (∀ x, p.latRef = some x → W.lat = x) ∧ (∀ x, p.longRef = some x → W.long = x) ∧
      (p.latRef = none ∨ p.longRef = none → W.long * W.lat = W.Sw) ∧
      (p.latRef = none → p.longRef = none →
        (∀ s ∈ p.segments, 2 * s.span ≤ W.lat) ∧ ∃ s ∈ p.segments, W.lat = 2 * s.span) := by
  unfold mkMachUp at h
  rcases hwp : mkWingPart p with e | wo
  · rw [hwp] at h; cases h
  rw [hwp] at h
  have ho : o.wing = wo := by
    simp only [bind, Except.bind] at h
    split_ifs at h with hp
    · cases h; rfl
    · rcases hps : mkPropsSolver mkPM p (wo.map fun w => w.grid.data.map (·.rcp)) with e | q
      · rw [hps] at h; cases h
      · rw [hps] at h; cases h; rfl
  unfold mkWingPart at hwp
  rw [if_neg hw] at hwp
  rcases hg : mkGrid p true with e | g
  · rw [hg] at hwp; cases hwp
  rw [hg] at hwp
  rcases hr : refLengths p g.refArea with e | ⟨lat, long⟩
  · simp only [bind, Except.bind, hr] at hwp; cases hwp
  simp only [bind, Except.bind, hr] at hwp
  cases hwp
  refine ⟨_, ho, rfl, ?_⟩
  unfold refLengths at hr
  rcases hl : p.latRef with _ | a <;> rcases hlo : p.longRef with _ | b <;> rw [hl, hlo] at hr <;> simp only at hr
  · rcases hd : safeDiv g.refArea (inferLat p.segments) with e | x
    · rw [hd] at hr; cases hr
    rw [hd] at hr
    cases hr
    obtain ⟨h0, rfl⟩ := safeDiv_ok hd
    refine ⟨by simp, by simp, fun _ => by simp only [WingPart.Sw]; field_simp, fun _ _ => ?_⟩
    obtain ⟨_, h2, h3⟩ := inferLat_spec p.segments
    exact ⟨h2, h3.resolve_left h0⟩
  · rcases hd : safeDiv g.refArea b with e | x
    · rw [hd] at hr; cases hr
    rw [hd] at hr
    cases hr
    obtain ⟨h0, rfl⟩ := safeDiv_ok hd
    exact ⟨by simp, by simp, fun _ => by simp only [WingPart.Sw]; field_simp, fun _ h => by simp at h⟩
  · rcases hd : safeDiv g.refArea a with e | x
    · rw [hd] at hr; cases hr
    rw [hd] at hr
    cases hr
    obtain ⟨h0, rfl⟩ := safeDiv_ok hd
    exact ⟨by simp, by simp, fun _ => by simp only [WingPart.Sw]; field_simp, fun h => by simp at h⟩
  · cases hr
    exact ⟨by simp, by simp, fun h => by simp at h, fun h => by simp at h⟩

/-- the wing part of the demonstration wing -/
theorem unit_wingPart {g : Grid} (hg : mkGrid unitPlane true = .ok g) :
    mkWingPart unitPlane = .ok (some ⟨g, 2, g.refArea / 2⟩) := by
  have hlat : inferLat unitPlane.segments = 2 := by
    rw [unit_segments]
    norm_num [inferLat, unitSeg]
  have hr : refLengths unitPlane g.refArea = .ok (2, g.refArea / 2) := by
    have h1 : unitPlane.latRef = none := rfl
    have h2 : unitPlane.longRef = none := rfl
    unfold refLengths
    rw [h1, h2]
    simp only [hlat, safeDiv]
    norm_num
  unfold mkWingPart
  rw [if_neg (by rw [unit_wings]; simp), hg]
  simp only [bind, Except.bind, hr]
  rfl

/-- the reference lengths of the demonstration wing -/
example (mkPM : PropGeom → V3 → Option String → Option (List V3) → Except PyErr PM) :
    ∃ o W, mkMachUp mkPM unitPlane = .ok o ∧ o.wing = some W ∧ W.lat = 2 ∧ W.long * W.lat = W.Sw := by
  obtain ⟨g, hg⟩ := grid_exists _ _ _ unit_wellFormed true
  have hw := unit_wingPart hg
  have h : mkMachUp mkPM unitPlane = .ok ⟨unitPlane, some ⟨g, 2, g.refArea / 2⟩, none⟩ := by
    unfold mkMachUp
    rw [hw]
    simp only [bind, Except.bind]
    rw [if_pos (show unitPlane.props = [] from rfl)]
    rfl
  obtain ⟨W, h1, -, -, -, h2, h3⟩ := C58_reference_lengths h (by rw [unit_wings]; simp)
  refine ⟨_, W, h, h1, ?_, h2 (.inl rfl)⟩
  cases h1
  rfl

/-! ### The unit system (C08) -/

theorem units_run (p : Plane) (op : PlaneOp) : (op.run p).units = p.units := by
  cases op with
  | addWing name parent location side d =>
    simp only [PlaneOp.run, Plane.addWing]
    split
    · rfl
    · split <;> rfl
  | airfoil id name e props =>
    simp only [PlaneOp.run, Plane.wingAirfoil]
    split <;> rfl
  | controlSurface id props =>
    simp only [PlaneOp.run, Plane.wingCtrl]
    split <;> rfl
  | addProp name d => rfl
  | propAirfoil name af props =>
    simp only [PlaneOp.run, Plane.propAirfoil]
    split
    · rfl
    · split <;> rfl
  | cgLocation x y z => rfl
  | setRefLengths a b => rfl

theorem units_runOps (p : Plane) (ops : List PlaneOp) : (runOps p ops).units = p.units := by
  unfold runOps
  induction ops generalizing p with
  | nil => rfl
  | cons op ops ih => rw [List.foldl_cons, ih, units_run]

theorem dictSet_ne_nil {α : Type*} (d : List (String × α)) (k : String) (v : α) : dictSet d k v ≠ [] := by
  cases d with
  | nil => simp [dictSet]
  | cons a d => unfold dictSet; split_ifs <;> simp

theorem props_run {p : Plane} (h : p.props ≠ []) (op : PlaneOp) : (op.run p).props ≠ [] := by
  cases op with
  | addWing name parent location side d =>
    simp only [PlaneOp.run, Plane.addWing]
    split
    · exact h
    · split <;> exact h
  | airfoil id name e props =>
    simp only [PlaneOp.run, Plane.wingAirfoil]
    split <;> exact h
  | controlSurface id props =>
    simp only [PlaneOp.run, Plane.wingCtrl]
    split <;> exact h
  | addProp name d => exact dictSet_ne_nil _ _ _
  | propAirfoil name af props =>
    simp only [PlaneOp.run, Plane.propAirfoil]
    split
    · exact h
    · split
      · exact h
      · exact dictSet_ne_nil _ _ _
  | cgLocation x y z => exact h
  | setRefLengths a b => exact h

theorem props_runOps {p : Plane} {ops : List PlaneOp} (h : p.props ≠ [] ∨ ∃ name d, PlaneOp.addProp name d ∈ ops) :
    (runOps p ops).props ≠ [] := by
  unfold runOps
  induction ops generalizing p with
  | nil =>
    rcases h with h | ⟨_, _, h⟩
    · exact h
    · simp at h
  | cons op ops ih =>
    rw [List.foldl_cons]
    apply ih
    rcases h with h | ⟨name, d, h⟩
    · exact .inl (props_run h op)
    · rcases List.mem_cons.1 h with h | h
      · subst h
        exact .inl (dictSet_ne_nil _ _ _)
      · exact .inr ⟨name, d, h⟩

/-- **C08 fails.** Every plane built through the API with at least one `add_prop` call is rejected, however propellers are
modelled; with `AttributeError` if its wings are in order. -/
theorem C08_refuted (nm : String) (pos : Option V3) (ops : List PlaneOp) (h : ∃ name d, PlaneOp.addProp name d ∈ ops) :
    (∀ o, mkMachUp mkPM (built nm pos ops) ≠ .ok o) ∧
    ((∃ w, mkWingPart (built nm pos ops) = .ok w) → mkMachUp mkPM (built nm pos ops) = .error .attribute) := by
  have hu : (built nm pos ops).units = none := units_runOps _ _
  have hp : (built nm pos ops).props ≠ [] := props_runOps (.inr h)
  have hps : ∀ pts, mkPropsSolver mkPM (built nm pos ops) pts = .error .attribute := by
    intro pts
    unfold mkPropsSolver Plane.getUnits
    rw [hu]
    generalize (built nm pos ops).props = l at hp
    rcases l with _ | ⟨a, l⟩
    · exact absurd rfl hp
    · rfl
  rcases hw : mkWingPart (built nm pos ops) with e | w
  · refine ⟨fun o ho => ?_, by rintro ⟨w, hw⟩; cases hw⟩
    unfold mkMachUp at ho
    rw [hw] at ho
    cases ho
  · have : mkMachUp mkPM (built nm pos ops) = .error .attribute := by
      unfold mkMachUp
      rw [hw]
      simp only [bind, Except.bind]
      rw [if_neg hp, hps]
      rfl
    refine ⟨fun o ho => ?_, fun _ => this⟩
    rw [this] at ho
    cases ho

theorem segPos_congr {p q : Plane} (hh : p.heap = q.heap) (hp : p.position = q.position) (n : ℕ) (s : Seg) (t : TipAt) :
    segPos p n s t = segPos q n s t := by
  induction n generalizing s t with
  | zero => rfl
  | succ n ih =>
    unfold segPos
    simp only [Plane.getPosition, hh, hp, ih]

/-- the grid depends on the wings and the position of the plane only -/
theorem mkGrid_congr {p q : Plane} (hh : p.heap = q.heap) (hw : p.wings = q.wings) (hp : p.position = q.position) (c : Bool) :
    mkGrid p c = mkGrid q c := by
  have hl : p.wingList = q.wingList := by unfold Plane.wingList; rw [hh, hw]
  have hs : gridStep p c = gridStep q c := by
    funext st s
    unfold gridStep segData Plane.segPosition
    simp only [segPos_congr hh hp, hh]
  unfold mkGrid
  rw [hs]
  unfold Plane.segments Plane.numSections
  rw [hl]

/-- the wing part does not depend on propellers, unit system and centre of gravity -/
theorem mkWingPart_congr {p q : Plane} (hh : p.heap = q.heap) (hw : p.wings = q.wings) (hp : p.position = q.position)
    (h1 : p.latRef = q.latRef) (h2 : p.longRef = q.longRef) : mkWingPart p = mkWingPart q := by
  have hl : p.wingList = q.wingList := by unfold Plane.wingList; rw [hh, hw]
  unfold mkWingPart
  rw [hw, mkGrid_congr hh hw hp]
  have : ∀ S, refLengths p S = refLengths q S := by
    intro S
    unfold refLengths
    rw [h1, h2]
    unfold Plane.segments
    rw [hl]
  simp only [this]

/-- **C08, the part that holds.** The same plane with a unit system (as read from a file, see `C07_file_is_built`) is
accepted if its wings are in order and each propeller can be modelled; and a plane without propellers is accepted with
the same wings and reference lengths whether it was built through the API or read from a file. -/
theorem C08_file_partial (nm : String) (pos : Option V3) (ops : List PlaneOp) (u : Option String) :
    ((∃ w, mkWingPart (built nm pos ops) = .ok w) → (∀ q c pts, ∃ m, mkPM q c u pts = .ok m) →
      ∃ o, mkMachUp mkPM { built nm pos ops with units := some u } = .ok o) ∧
    ((built nm pos ops).props = [] →
      (mkMachUp mkPM (built nm pos ops)).map (fun o => (o.wing, o.props)) =
      (mkMachUp mkPM { built nm pos ops with units := some u }).map (fun o => (o.wing, o.props))) := by
  have hwc : mkWingPart { built nm pos ops with units := some u } = mkWingPart (built nm pos ops) :=
    mkWingPart_congr rfl rfl rfl rfl rfl
  constructor
  · rintro ⟨w, hw⟩ hm
    unfold mkMachUp
    rw [hwc, hw]
    simp only [bind, Except.bind]
    split_ifs with hp
    · exact ⟨_, rfl⟩
    · have : ∀ (pts : Option (List V3)) (l : List PropGeom) (acc : List (String × PM)), ∃ r, l.foldlM (fun d q => do
          let u ← Plane.getUnits { built nm pos ops with units := some u }
          let m ← mkPM q (built nm pos ops).cg u pts
          return dictSet d q.name m) acc = .ok r := by
        intro pts l
        induction l with
        | nil => intro acc; exact ⟨acc, rfl⟩
        | cons q l ih =>
          intro acc
          obtain ⟨m, hm'⟩ := hm q (built nm pos ops).cg pts
          obtain ⟨r, hr⟩ := ih (dictSet acc q.name m)
          refine ⟨r, ?_⟩
          rw [List.foldlM_cons]
          simp only [Plane.getUnits, bind, Except.bind, hm', pure, Except.pure]
          exact hr
      obtain ⟨r, hr⟩ := this (w.map fun w => w.grid.data.map (·.rcp)) ((built nm pos ops).props.map Prod.snd) []
      refine ⟨⟨{ built nm pos ops with units := some u }, w, some r⟩, ?_⟩
      rw [show mkPropsSolver mkPM { built nm pos ops with units := some u } (w.map fun w => w.grid.data.map (·.rcp)) = _ from hr]
      rfl
  · intro hp
    unfold mkMachUp
    rw [hwc]
    rcases mkWingPart (built nm pos ops) with e | w
    · rfl
    · simp only [bind, Except.bind]
      rw [if_pos hp, if_pos hp]
      rfl

/-- A plane for which the file version is accepted and the API version is not. -/
example (mkPM : PropGeom → V3 → Option String → Option (List V3) → Except PyErr PM) (hm : ∀ q c u pts, ∃ m, mkPM q c u pts = .ok m) :
    mkMachUp mkPM (built "p" none [.addProp "prop" {}]) = .error .attribute ∧
    ∃ o, mkMachUp mkPM { built "p" none [.addProp "prop" {}] with units := some (some "SI") } = .ok o := by
  have hw : ∃ w, mkWingPart (built "p" none [.addProp "prop" {}]) = .ok w := by
    refine ⟨none, ?_⟩
    unfold mkWingPart
    rw [if_pos (show (built "p" none [PlaneOp.addProp "prop" {}]).wings = [] from rfl)]
  exact ⟨(C08_refuted _ _ _ ⟨"prop", {}, by simp⟩).2 hw, (C08_file_partial _ _ _ _).1 hw (fun q c pts => hm q c _ pts)⟩

end Verif
