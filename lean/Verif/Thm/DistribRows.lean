import Verif.Thm.Distrib
import Verif.Thm.Session

/-!
# The rows of the tables of `distributions` (C101)
-/

namespace Verif
open V3 Act

/-- every column of the wing table -/
theorem under_wing_all (r : WingRow) :
    under "ControlPoint(x)" wingCaptions r.columns = some r.cp.x ∧ under "ControlPoint(y)" wingCaptions r.columns = some r.cp.y ∧
    under "ControlPoint(z)" wingCaptions r.columns = some r.cp.z ∧ under "Chord" wingCaptions r.columns = some r.chord ∧
    under "Area" wingCaptions r.columns = some r.area ∧ under "Alpha(deg)" wingCaptions r.columns = some r.alpha ∧
    under "Force(x)" wingCaptions r.columns = some r.force.x ∧ under "Force(y)" wingCaptions r.columns = some r.force.y ∧
    under "Force(z)" wingCaptions r.columns = some r.force.z ∧ under "SectionCL" wingCaptions r.columns = some r.CL ∧
    under "SectionCm" wingCaptions r.columns = some r.Cm ∧ under "SectionCDParasitic" wingCaptions r.columns = some r.CD ∧
    under "SectionAlpha_L0" wingCaptions r.columns = some r.aL0 ∧
    under "SectionCL_ref" wingCaptions r.columns = some r.CLref := by
  refine ⟨?_, ?_, ?_, ?_, ?_, ?_, ?_, ?_, ?_, ?_, ?_, ?_, ?_, ?_⟩ <;>
    simp [under, wingCaptions, WingRow.columns, List.lookup]

/-- **C101, wings.** Whenever `distributions` returns for a plane with wings, the wing table has one row per section of the
grid, in the same order.  With `R` the results of the solve it made: the row has the name, control point, chord and area of
the section; the numbers under `Force`, summed over the table, are the inviscid force; the numbers under `SectionCL`,
`SectionCm` and `SectionCDParasitic` are those of the two airfoils of the segment at the incidence of the section and the
deflection of its control surface, `SectionAlpha_L0` their zero-lift angle; and `SectionCL_ref` is the lift
coefficient referred to the longitudinal reference length. -/
theorem C101_wing_rows {nm : String} {pos : Option V3} {ops : List PlaneOp} {c : Bool} {g : Grid}
    (hg : mkGrid (built nm pos ops) c = .ok g) (cg : V3) {props : Bool} {simps : List ℝ → List ℝ → ℝ}
    {fuel : ℕ} {Sw lat long : ℝ} {bad : Act (LLState (Fin g.data.length) × List (PropSlot (Fin g.data.length))) (Option Loads)}
    {ps : Option PropDict} {w w' : World (fullBackend (g.geom cg) true props simps fuel Sw lat long bad)}
    {wt : Option (List WingRow)} {pt : Option (List PropRow)}
    (h : distributions (g.geom cg) true props simps fuel Sw lat long bad ps w = (.ok (wt, pt), w')) :
    ∃ t R, wt = some t ∧ w'.st.1.results = some R ∧ t.length = g.data.length ∧
      (R.inviscid.FX = (t.map fun r => (under "Force(x)" wingCaptions r.columns).getD 0).sum ∧
        R.inviscid.FY = (t.map fun r => (under "Force(y)" wingCaptions r.columns).getD 0).sum ∧
        R.inviscid.FZ = (t.map fun r => (under "Force(z)" wingCaptions r.columns).getD 0).sum) ∧
      ∀ i : Fin g.data.length, ∃ r α δ cl, t[i.val]? = some r ∧ δ = w'.st.1.ctrl.delta i ∧
        r.name = g.data[i].name ∧
        under "ControlPoint(x)" wingCaptions r.columns = some g.data[i].rcp.x ∧
        under "ControlPoint(y)" wingCaptions r.columns = some g.data[i].rcp.y ∧
        under "ControlPoint(z)" wingCaptions r.columns = some g.data[i].rcp.z ∧
        under "Chord" wingCaptions r.columns = some g.data[i].chord ∧
        under "Area" wingCaptions r.columns = some g.data[i].area ∧
        IsIncidence g.data[i].toSection (R.vi i) α ∧
        cl = g.data[i].toSection.lift α ∧
        under "SectionCL" wingCaptions r.columns = some cl ∧
        under "SectionCm" wingCaptions r.columns = some (g.data[i].toSection.pitchingMoment α δ) ∧
        under "SectionCDParasitic" wingCaptions r.columns = some (g.data[i].toSection.drag α δ) ∧
        under "SectionAlpha_L0" wingCaptions r.columns = some (g.data[i].toSection.mix AfCoef.al0) ∧
        under "SectionCL_ref" wingCaptions r.columns = some (cl * g.data[i].chord / long) := by
  obtain ⟨st, d, ct, R, hl, -, ht⟩ := wingTable_solve h
  obtain ⟨v, u, -, -, -, hres, -⟩ := llSolve_ok hl
  obtain ⟨v', u', -, -, hsec, hinv, -⟩ := C83_sections _ _ _ _ _ _ _ hl
  refine ⟨_, R, ht, hres, by simp, ?_, fun i => ?_⟩
  · obtain ⟨h1, h2, h3, -⟩ := hinv
    rw [h1, h2, h3]
    have e := fun i => under_wing_all (wingRow (g.geom cg) long R i)
    simp only [List.map_ofFn, Function.comp_def, List.sum_ofFn]
    refine ⟨?_, ?_, ?_⟩ <;> refine Finset.sum_congr rfl fun i _ => ?_
    · rw [(e i).2.2.2.2.2.2.1]; rfl
    · rw [(e i).2.2.2.2.2.2.2.1]; rfl
    · rw [(e i).2.2.2.2.2.2.2.2.1]; rfl
  · obtain ⟨s1, s2, s3, s4, -⟩ := hsec i
    obtain ⟨e1, e2, e3, e4, e5, e6, e7, e8, e9, e10, e11, e12, e13, e14⟩ := under_wing_all (wingRow (g.geom cg) long R i)
    refine ⟨wingRow (g.geom cg) long R i, R.alpha i, _, _, by simp [List.getElem?_ofFn], rfl, rfl, e1, e2, e3, e4, e5, s1, rfl,
      ?_, ?_, ?_, ?_, ?_⟩
    · rw [e10]; exact congrArg some s2
    · rw [e11]; exact congrArg some s4
    · rw [e12]; exact congrArg some s3
    · rw [e13]
      obtain ⟨s, -, l, q, j, hx⟩ := grid_mem hg (List.get_mem g.data i)
      have : (g.data.get i).al0 = (g.data.get i).toSection.mix AfCoef.al0 := by
        rw [hx]
        show lerp _ _ _ = (1 - _) * _ + _ * _
        simp only [lerp]
        show _ = (1 - sCp c s.n j) * (leftRight s.side s.root s.tip).1.al0 + sCp c s.n j * (leftRight s.side s.root s.tip).2.al0
        ring
      exact congrArg some this
    · rw [e14]
      show some (R.cl i * _ / long) = _
      rw [s2]; rfl

/-- every column of the propeller table -/
theorem under_prop_all (r : PropRow) :
    under "RadialPosition" propCaptions r.columns = some r.r ∧ under "Chord" propCaptions r.columns = some r.chord ∧
    under "Alpha(deg)" propCaptions r.columns = some r.alpha ∧ under "SectionCL" propCaptions r.columns = some r.CL ∧
    under "SectionCD" propCaptions r.columns = some r.CD ∧ under "InducedVelocity,Vi" propCaptions r.columns = some r.Vi ∧
    under "Vi(Axial)" propCaptions r.columns = some r.Vx ∧ under "Vi(Tangential)" propCaptions r.columns = some r.Vt := by
  refine ⟨?_, ?_, ?_, ?_, ?_, ?_, ?_, ?_⟩ <;> simp [under, propCaptions, PropRow.columns, List.lookup]

theorem propRows_length {ι : Type} {sls : List (PropSlot ι)} : ∀ {t : List PropRow}, propRows sls = .ok t →
    t.length = (sls.map fun sl => sl.model.nodes).sum := by
  induction sls with
  | nil => intro t h; cases h; rfl
  | cons sl rest ih =>
    intro t h
    unfold propRows at h
    rcases ho : sl.out with _ | o
    · rw [ho] at h; cases h
    · rw [ho] at h
      simp only at h
      rcases hr : propRows rest with e | t'
      · rw [hr] at h; cases h
      · rw [hr] at h
        simp only [Except.map, Except.ok.injEq] at h
        subst h
        simp [ih hr]

theorem propRows_get {ι : Type} {sls : List (PropSlot ι)} : ∀ {t : List PropRow}, propRows sls = .ok t →
    ∀ (k : ℕ) (sl : PropSlot ι) (i : ℕ), sls[k]? = some sl → i < sl.model.nodes → ∃ o, sl.out = some o ∧
      t[((sls.take k).map fun sl => sl.model.nodes).sum + i]? = some (propRow sl.name sl.model o i) := by
  induction sls with
  | nil => intro t h k sl i hk; simp at hk
  | cons s rest ih =>
    intro t h k sl i hk hi
    unfold propRows at h
    rcases ho : s.out with _ | o
    · rw [ho] at h; cases h
    · rw [ho] at h
      simp only at h
      rcases hr : propRows rest with e | t'
      · rw [hr] at h; cases h
      · rw [hr] at h
        simp only [Except.map, Except.ok.injEq] at h
        subst h
        cases k with
        | zero =>
          simp only [List.getElem?_cons_zero, Option.some.injEq] at hk
          subst hk
          refine ⟨o, ho, ?_⟩
          rw [List.getElem?_append_left (by simpa using hi)]
          simp [hi]
        | succ k =>
          simp only [List.getElem?_cons_succ] at hk
          obtain ⟨o', ho', hg⟩ := ih hr k sl i hk hi
          refine ⟨o', ho', ?_⟩
          rw [List.getElem?_append_right (by simp; omega)]
          rw [← hg]
          congr 1
          simp
          omega

/-- **C101, propellers.** Whenever `distributions` returns for a plane with propellers, the propeller table lists the
propellers in the order in which the analyses take them, each with its blade stations from hub to tip.  Each row has the
name of the propeller, the radius and chord of the station, the lift and drag coefficients the blade section has at the
incidence given under `Alpha(deg)`, and the axial and tangential parts of the induced velocity. -/
theorem C101_prop_rows {n : ℕ} {G : LLGeom (Fin n)} {wings : Bool} {simps : List ℝ → List ℝ → ℝ} {fuel : ℕ} {Sw lat long : ℝ}
    {bad : Act (LLState (Fin n) × List (PropSlot (Fin n))) (Option Loads)} {ps : Option PropDict}
    {w w' : World (fullBackend G wings true simps fuel Sw lat long bad)} {wt : Option (List WingRow)}
    {pt : Option (List PropRow)}
    (h : distributions G wings true simps fuel Sw lat long bad ps w = (.ok (wt, pt), w')) :
    ∃ t, pt = some t ∧ w'.st.2 ≠ [] ∧ t.length = ((w'.st.2).map fun sl => sl.model.nodes).sum ∧
      ∀ (k : ℕ) (sl : PropSlot (Fin n)) (i : ℕ), (w'.st.2)[k]? = some sl → i < sl.model.nodes →
        ∃ r alpha cl cd vi vx vt mem mem', t[(((w'.st.2).take k).map fun sl => sl.model.nodes).sum + i]? = some r ∧
          r.name = sl.name ∧
          under "RadialPosition" propCaptions r.columns = some (sl.model.stn i).r ∧
          under "Chord" propCaptions r.columns = some (sl.model.stn i).cb ∧
          under "Alpha(deg)" propCaptions r.columns = some alpha ∧
          under "SectionCL" propCaptions r.columns = some cl ∧ under "SectionCD" propCaptions r.columns = some cd ∧
          (∀ α, IsDegrees alpha α → sectionCL (sl.model.stn i) mem α = some cl ∧
            sectionCD (sl.model.stn i) mem' cl α = some cd) ∧
          under "InducedVelocity,Vi" propCaptions r.columns = some vi ∧
          under "Vi(Axial)" propCaptions r.columns = some vx ∧ under "Vi(Tangential)" propCaptions r.columns = some vt ∧
          vx ^ 2 + vt ^ 2 = vi ^ 2 := by
  obtain ⟨T, h1, -, h3⟩ := distributions_ok h
  obtain ⟨t, r, hpt⟩ := propTable_nonempty h
  rw [hpt] at h3
  have hp := propTable_rows h3
  refine ⟨_, hpt, (muSolve_slots h1).1, propRows_length hp, fun k sl i hk hi => ?_⟩
  obtain ⟨o, ho, hr⟩ := propRows_get hp k sl i hk hi
  obtain ⟨o', ho', ⟨J, st, st', hc⟩, -⟩ := (muSolve_slots h1).2 sl (List.mem_of_getElem? hk)
  obtain rfl : o = o' := by rw [ho] at ho'; cases ho'; rfl
  obtain ⟨-, -, -, -, mem, mem', hsec⟩ := findCoefs_integrals hc
  obtain ⟨e1, e2, e3, e4, e5, e6, e7, e8⟩ := under_prop_all (propRow sl.name sl.model o i)
  refine ⟨_, _, _, _, _, _, _, mem i, mem' i, hr, rfl, e1, e2, e3, e4, e5, ?_, e6, e7, e8, ?_⟩
  · intro α hα
    obtain rfl : o.c.alpha i = α := (degrees_spec _).symm.trans hα
    exact hsec i hi
  · show (viAt sl.model o.n o.c i * _) ^ 2 + (viAt sl.model o.n o.c i * _) ^ 2 = viAt sl.model o.n o.c i ^ 2
    rw [mul_pow, mul_pow, ← mul_add, add_comm, Real.sin_sq_add_cos_sq, mul_one]

/-- `distributions` succeeds for a plane without propellers whenever `solve` does (and the reference length is not zero) -/
theorem distributions_wings {n : ℕ} {G : LLGeom (Fin n)} {simps : List ℝ → List ℝ → ℝ} {fuel : ℕ} {Sw lat long : ℝ}
    {bad : Act (LLState (Fin n) × List (PropSlot (Fin n))) (Option Loads)} {ps : Option PropDict}
    {w w' : World (fullBackend G true false simps fuel Sw lat long bad)} {T : Loads} (hlong : long ≠ 0)
    (h : muSolve (B := fullBackend G true false simps fuel Sw lat long bad) ps w = (.ok T, w')) :
    ∃ t, distributions G true false simps fuel Sw lat long bad ps w = (.ok (some t, none), w') := by
  obtain ⟨field, st1, prop, wing, -, hw, -⟩ := muSolve_ok h
  rw [if_pos (show (fullBackend G true false simps fuel Sw lat long bad).hasWings = true from rfl)] at hw
  obtain ⟨R, -, hR⟩ := hw
  obtain ⟨hl, -⟩ := full_wing hR
  obtain ⟨v, u, -, -, -, hres, -⟩ := llSolve_ok hl
  refine ⟨List.ofFn fun i => wingRow G long R i, ?_⟩
  unfold distributions
  rw [bind_of_ok h, get_bind]
  have h2 : wingTable w'.st G true long = .ok (some (List.ofFn fun i => wingRow G long R i)) := by
    unfold wingTable
    rw [if_pos rfl, hres]
    simp only
    rw [if_neg hlong]
  rw [bind_of_ok ((lift_run _ _).trans (by rw [h2])), bind_of_ok (show
    (Act.lift (propTable (show LLState (Fin n) × List (PropSlot (Fin n)) from w'.st) false) :
      Act (World (fullBackend G true false simps fuel Sw lat long bad)) _) w' = (.ok none, w') from rfl)]
  rfl

-- the demonstration aircraft without propellers
example (simps : List ℝ → List ℝ → ℝ) (fuel : ℕ) : ∃ g, mkGrid (built "unit" none unitOps) true = .ok g ∧
    ∀ bad, ∃ (w w' : World (fullBackend (g.geom unitPlane.cg) true false simps fuel 2 2 1 bad)) (t : List WingRow),
      distributions (g.geom unitPlane.cg) true false simps fuel 2 2 1 bad none w = (.ok (some t, none), w') := by
  obtain ⟨g, hg, hsol⟩ := unit_forces true
  refine ⟨g, hg, fun bad => ?_⟩
  let w : World (fullBackend (g.geom unitPlane.cg) true false simps fuel 2 2 1 bad) :=
    { st := (LLState.init _, []), aero := some (unitAero _), ctrl := some exCtrl }
  obtain ⟨R, hR, -⟩ := hsol (LLState.init _)
  have hm : ∃ T w', muSolve (B := fullBackend (g.geom unitPlane.cg) true false simps fuel 2 2 1 bad) none w = (.ok T, w') := by
    have := muSolve_wingsOnly (B := fullBackend (g.geom unitPlane.cg) true false simps fuel 2 2 1 bad) rfl rfl (ps := none)
      (w := w) (d := unitAero _) rfl rfl
    have e : ((fullBackend (g.geom unitPlane.cg) true false simps fuel 2 2 1 bad).wingSolve (unitAero _) w.ctrl w.st).1 =
        .ok R := hR
    rw [e] at this
    rcases hq : muSolve (B := fullBackend (g.geom unitPlane.cg) true false simps fuel 2 2 1 bad) none w with ⟨x, w'⟩
    have h1 : x = _ := (congrArg Prod.fst hq).symm.trans this
    exact ⟨_, w', by rw [h1]; rfl⟩
  obtain ⟨T, w', hm⟩ := hm
  obtain ⟨t, ht⟩ := distributions_wings one_ne_zero hm
  exact ⟨w, w', t, ht⟩

-- `pusher_tables`: a call that returns both tables
example (bad : Act (LLState (Fin 2) × List (PropSlot (Fin 2))) (Option Loads)) :
    ∃ (w w' : World (pusher bad)) (ps : Option PropDict) (t : List WingRow) (pt : List PropRow),
      distributions exGeom true true (fun _ _ => 1) 1 1 1 1 bad ps w = (.ok (some t, some pt), w') := pusher_tables bad

end Verif
