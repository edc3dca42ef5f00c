import Verif.Model.MUPlane
import Verif.Thm.MUInit
import Verif.Lemmas.PlaneOrder
import Verif.Examples.Prop

/-!
# Constructing an analysis and the aircraft (C99)
-/

namespace Verif
open V3

variable {PM : Type}

/-- `PropModel(prop, cg, units, points)` as the constructor `MachUp` uses -/
noncomputable def propModelOf (table : String → ℝ → ℝ) (q : PropGeom) (cg : V3) (u : Option String) (pts : Option (List V3)) :
    Except PyErr (PropM ℕ) := mkPropM table q cg u (pts.map fun l i => l.getD i 0)

theorem equipped_of_ne {q : PropGeom} (h : q.airfoils ≠ []) : q.equipped = q := by
  unfold PropGeom.equipped; rw [if_neg h]

theorem afterError_of_ne {q : PropGeom} (h : q.airfoils ≠ []) : q.afterError = q := by
  unfold PropGeom.afterError; rw [equipped_of_ne h, ite_self]

theorem propsAfter_of_ne (mk : PropGeom → Except PyErr PM) {l : List (String × PropGeom)}
    (h : ∀ kv ∈ l, kv.2.airfoils ≠ []) : propsAfter mk l = l := by
  induction l with
  | nil => rfl
  | cons kv t ih =>
    obtain ⟨k, q⟩ := kv
    have hq := h (k, q) List.mem_cons_self
    have ht := ih fun kv hkv => h kv (List.mem_cons_of_mem _ hkv)
    unfold propsAfter
    cases mk q with
    | ok m => simp only; rw [equipped_of_ne hq, ht]
    | error e => simp only; rw [afterError_of_ne hq]

/-- **C99, the part that holds.** Constructing a `MachUp` object, successfully or not, never changes wings, CG, reference
lengths, position or unit system of the aircraft; and it does not change the aircraft at all if every propeller has been given an
airfoil. -/
theorem C99_unchanged_partial (mkPM : PropGeom → V3 → Option String → Option (List V3) → Except PyErr PM) (p : Plane) :
    { planeAfter mkPM p with props := p.props } = p ∧
    ((∀ kv ∈ p.props, kv.2.airfoils ≠ []) → planeAfter mkPM p = p) := by
  unfold planeAfter
  constructor
  · split <;> rfl
  · intro h
    split
    · rw [propsAfter_of_ne _ h]
    · rfl

/-- an aircraft with a propeller that has been given an airfoil, and one with a propeller that has not -/
example (table : String → ℝ → ℝ) :
    planeAfter (propModelOf table) (built "p" none [.addProp "prop" {}, .propAirfoil "prop" "NACA0012" {}]) =
      built "p" none [.addProp "prop" {}, .propAirfoil "prop" "NACA0012" {}] ∧
    ∃ kv ∈ (built "p" none [.addProp "prop" {}]).props, kv.2.airfoils = [] := by
  refine ⟨(C99_unchanged_partial _ _).2 ?_, _, List.mem_singleton.2 rfl, rfl⟩
  have : (built "p" none [.addProp "prop" {}, .propAirfoil "prop" "NACA0012" {}]).props =
      [("prop", { mkProp "prop" {} with airfoils := [("NACA0012", Airfoil.default "NACA0012")] })] := by
    simp only [built, runOps, List.foldl, PlaneOp.run, Plane.addProp, Plane.propAirfoil, newPlane, dictSet]
    rw [show mkAirfoil "NACA0012" ({} : AirfoilProps) = .ok (Airfoil.default "NACA0012") by
      unfold mkAirfoil; rw [if_neg (by simp [AirfoilProps.truthy])]]
    simp [dictGet, dictSet, mkProp]
  rw [this]
  simp

theorem bladeAf_equipped (q : PropGeom) : bladeAf q.equipped = bladeAf q := by
  unfold PropGeom.equipped
  split_ifs with h
  · unfold bladeAf; rw [h]
  · rfl

theorem equipped_fields (q : PropGeom) : q.equipped = { q with airfoils := q.equipped.airfoils } := by
  unfold PropGeom.equipped; split_ifs <;> rfl

theorem mkPropM_equipped {ι : Type} (table : String → ℝ → ℝ) (q : PropGeom) (cg : V3) (u : Option String)
    (pts : Option (ι → V3)) :
    mkPropM table q.equipped cg u pts = (mkPropM table q cg u pts).map fun M => { M with geom := q.equipped } := by
  have hz : ∀ i, zetaAt q.equipped i = zetaAt q i := fun i => by rw [equipped_fields]; rfl
  have hp : ∀ z r a, bladePitch table q.equipped z r a = bladePitch table q z r a := fun z r a => by rw [equipped_fields]; rfl
  have hc : ∀ z, bladeChord table q.equipped z = bladeChord table q z := fun z => by rw [equipped_fields]; rfl
  have hm : ∀ z r af b c, mkStn q.equipped z r af b c = mkStn q z r af b c := fun z r af b c => by
    rw [equipped_fields]; rfl
  have hd : q.equipped.diameter = q.diameter := by rw [equipped_fields]
  have hn : q.equipped.nodes = q.nodes := by rw [equipped_fields]
  have hmo : q.equipped.motor = q.motor := by rw [equipped_fields]
  have hs : ∀ af i, stnAt table q.equipped af i = stnAt table q af i := fun af i => by
    unfold stnAt; simp only [hz, hp, hc, hm, hd]
  unfold mkPropM
  simp only [hz, hp, hc, hd, hn, hmo, hs, bladeAf_equipped]
  by_cases h1 : q.diameter = 0
  · rw [if_pos h1, if_pos h1]; rfl
  rw [if_neg h1, if_neg h1]
  by_cases h2 : q.nodes = 0
  · rw [if_pos h2, if_pos h2]; rfl
  rw [if_neg h2, if_neg h2]
  cases bladeAf q with
  | error e => rfl
  | ok af =>
    simp only [bind, Except.bind]
    cases bladePitch table q (zetaAt q 0) (zetaAt q 0 * q.diameter * 0.5) (af 0).aL0 with
    | error e => rfl
    | ok b =>
      simp only
      cases bladeChord table q (zetaAt q 0) with
      | error e => rfl
      | ok c =>
        simp only
        cases calcMotor q.motor with
        | error e => rfl
        | ok mo =>
          simp only
          split_ifs <;> rfl

/-- The same propeller model, with the default airfoil written into the geometry it belongs to. -/
noncomputable def PropM.equipped {ι : Type} (M : PropM ι) : PropM ι := { M with geom := M.geom.equipped }

theorem mkPropM_geom {ι : Type} {table : String → ℝ → ℝ} {q : PropGeom} {cg : V3} {u : Option String}
    {pts : Option (ι → V3)} {M : PropM ι} (h : mkPropM table q cg u pts = .ok M) : M.geom = q := by
  unfold mkPropM at h
  by_cases h1 : q.diameter = 0
  · rw [if_pos h1] at h; cases h
  rw [if_neg h1] at h
  by_cases h2 : q.nodes = 0
  · rw [if_pos h2] at h; cases h
  rw [if_neg h2] at h
  cases ha : bladeAf q with
  | error e => rw [ha] at h; cases h
  | ok af =>
    simp only [ha, bind, Except.bind] at h
    cases hb : bladePitch table q (zetaAt q 0) (zetaAt q 0 * q.diameter * 0.5) (af 0).aL0 with
    | error e => rw [hb] at h; cases h
    | ok b =>
      simp only [hb] at h
      cases hc : bladeChord table q (zetaAt q 0) with
      | error e => rw [hc] at h; cases h
      | ok c =>
        simp only [hc] at h
        cases hm : calcMotor q.motor with
        | error e => rw [hm] at h; cases h
        | ok mo =>
          simp only [hm] at h
          split_ifs at h
          cases h
          rfl

theorem propModelOf_equipped (table : String → ℝ → ℝ) (q : PropGeom) (cg : V3) (u : Option String) (pts : Option (List V3)) :
    propModelOf table q.equipped cg u pts = (propModelOf table q cg u pts).map PropM.equipped := by
  unfold propModelOf
  rw [mkPropM_equipped]
  cases h : mkPropM table q cg u (pts.map fun l i => l.getD i 0) with
  | error e => rfl
  | ok M =>
    have := mkPropM_geom h
    simp only [Except.map, PropM.equipped, this]

theorem props_again (table : String → ℝ → ℝ) (cg : V3) (u : Option String) (pts : Option (List V3)) :
    ∀ (l : List (String × PropGeom)) (acc : List (String × PropM ℕ)),
      ((propsAfter (fun q => propModelOf table q cg u pts) l).map Prod.snd).foldlM (fun d q => do
        let m ← propModelOf table q cg u pts
        return dictSet d q.name m) (acc.map fun kv => (kv.1, kv.2.equipped)) =
      ((l.map Prod.snd).foldlM (fun d q => do
        let m ← propModelOf table q cg u pts
        return dictSet d q.name m) acc).map (List.map fun (kv : String × PropM ℕ) => (kv.1, kv.2.equipped)) := by
  intro l
  induction l with
  | nil => intro acc; rfl
  | cons kv t ih =>
    intro acc
    obtain ⟨k, q⟩ := kv
    unfold propsAfter
    have he := propModelOf_equipped table q cg u pts
    have hname : q.equipped.name = q.name := by rw [equipped_fields]
    cases hq : propModelOf table q cg u pts with
    | ok M =>
      rw [hq] at he
      simp only [List.map_cons, List.foldlM_cons, hq, he, Except.map, bind, Except.bind, pure, Except.pure]
      have := ih (dictSet acc q.name M)
      have hds : (dictSet acc q.name M).map (fun kv => (kv.1, kv.2.equipped)) =
          dictSet (acc.map fun kv => (kv.1, kv.2.equipped)) q.name M.equipped :=
        (dictSet_map (fun _ M => PropM.equipped M) acc q.name M)
      rw [hds] at this
      rw [hname]
      exact this
    | error e =>
      rw [hq] at he
      have hae : propModelOf table q.afterError cg u pts = .error e := by
        unfold PropGeom.afterError
        split_ifs
        · exact hq
        · exact he
      simp only [List.map_cons, List.foldlM_cons, hq, hae, bind, Except.bind, Except.map]

/-- **C99, analysing again.** Constructing a second `MachUp` object for the aircraft without changing it in between has
the same outcome: the same wing model and reference lengths and the same propeller models, or the same exception. -/
theorem C99_again (table : String → ℝ → ℝ) (p : Plane) :
    (mkMachUp (propModelOf table) (planeAfter (propModelOf table) p)).map (fun o => (o.wing, o.props)) =
    (mkMachUp (propModelOf table) p).map
      (fun o => (o.wing, o.props.map (List.map fun kv => (kv.1, kv.2.equipped)))) := by
  have hw : mkWingPart (planeAfter (propModelOf table) p) = mkWingPart p := by
    unfold planeAfter
    split
    · exact mkWingPart_congr rfl rfl rfl rfl rfl
    · rfl
  unfold mkMachUp
  rw [hw]
  cases hwp : mkWingPart p with
  | error e => rfl
  | ok w =>
    simp only [bind, Except.bind]
    by_cases hp : p.props = []
    · have : (planeAfter (propModelOf table) p).props = [] := by
        unfold planeAfter
        split
        · rw [hp]; rfl
        · exact hp
      rw [if_pos hp, if_pos this]
      rfl
    · cases hu : p.getUnits with
      | error e =>
        have hpa : planeAfter (propModelOf table) p = p := by
          unfold planeAfter; rw [hwp, hu]
        rw [hpa, if_neg hp]
        unfold mkPropsSolver
        rw [hu]
        cases hl : p.props with
        | nil => exact absurd hl hp
        | cons a t => rfl
      | ok u =>
        have hpa : planeAfter (propModelOf table) p = { p with props := propsAfter (fun q =>
            propModelOf table q p.cg u (w.map fun w => w.grid.data.map (·.rcp))) p.props } := by
          unfold planeAfter; rw [hwp, hu]
        have hne : (planeAfter (propModelOf table) p).props ≠ [] := by
          rw [hpa]
          cases hl : p.props with
          | nil => exact absurd hl hp
          | cons a t =>
            obtain ⟨k, q⟩ := a
            simp only [propsAfter]
            split <;> simp
        rw [if_neg hp, if_neg hne]
        unfold mkPropsSolver
        have hu' : (planeAfter (propModelOf table) p).getUnits = .ok u := by
          rw [hpa]; exact hu
        simp only [hu', hu, bind, Except.bind]
        have := props_again table p.cg u (w.map fun w => w.grid.data.map (·.rcp)) p.props []
        simp only [bind, Except.bind, List.map_nil] at this
        rw [hpa]
        simp only
        rw [this]
        cases List.foldlM (m := Except PyErr) _ ([] : List (String × PropM ℕ)) (p.props.map Prod.snd) <;> rfl

/-- **C99 fails.** Analyse an aircraft with a propeller that still has no airfoil, then give it one: the aircraft is now
rejected, although without the analysis it is accepted.  (Analysing it has added a second airfoil to the aircraft.) -/
theorem C99_refuted (table : String → ℝ → ℝ) :
    ¬ ∀ (nm : String) (pos : Option V3) (ops : List PlaneOp) (u : Option String) (name af : String) (props : AirfoilProps),
      (∃ o, mkMachUp (propModelOf table) (({ built nm pos ops with units := some u } : Plane).propAirfoil name af props).2 = .ok o) →
      ∃ o, mkMachUp (propModelOf table)
        ((planeAfter (propModelOf table) { built nm pos ops with units := some u }).propAirfoil name af props).2 = .ok o := by
  intro hall
  let d : PropDims := { position := some ⟨-1, 0, 0⟩, nodes := some 2, diameter := some 2, hubDiameter := some 1
                        rotDir := some (.str "CCW"), pitch := some { type := some "ratio", value := some 1 }
                        chord := some { type := some "linear", root := some 0.07585, tip := some 0.1515483 } }
  let fp : AirfoilProps := { al0 := some 0, cla := some 6, clMax := some 1.2, cml0 := some 0, cma := some 0
                             cd0 := some 0.01, cd1 := some 0, cd2 := some 0.01 }
  have hfoil : mkAirfoil "sym" fp = .ok demoFoil := by
    unfold mkAirfoil; rw [if_pos (by simp [fp, AirfoilProps.truthy])]; rfl
  have hprops : (built "p" none [.addProp "prop" d]).props = [("prop", mkProp "prop" d)] := rfl
  have hwings : (built "p" none [.addProp "prop" d]).wings = [] := rfl
  generalize hb : built "p" none [.addProp "prop" d] = b at hprops hwings
  have hwp : ∀ l, mkWingPart { b with units := some none, props := l } = .ok none := by
    intro l; unfold mkWingPart; rw [if_pos hwings]
  have key : ∀ q : PropGeom, mkMachUp (propModelOf table) { b with units := some none, props := [("prop", q)] } =
      (mkPropM (ι := ℕ) table q b.cg none none).map fun M =>
        ⟨{ b with units := some none, props := [("prop", q)] }, none, some [(q.name, M)]⟩ := by
    intro q
    unfold mkMachUp
    rw [hwp]
    simp only [bind, Except.bind, Option.map_none]
    rw [if_neg (by simp)]
    unfold mkPropsSolver Plane.getUnits propModelOf
    simp only [List.map_cons, List.map_nil, List.foldlM_cons, List.foldlM_nil, bind, Except.bind, Option.map_none]
    cases mkPropM (ι := ℕ) table q b.cg none none <;> rfl
  have hdemo : { mkProp "prop" d with airfoils := [("sym", demoFoil)] } = demoProp := by
    simp [mkProp, d, demoProp]
  have h1 : (({ b with units := some none } : Plane).propAirfoil "prop" "sym" fp).2 =
      { b with units := some none, props := [("prop", demoProp)] } := by
    unfold Plane.propAirfoil
    rw [hfoil]
    simp only [hprops, dictGet, ↓reduceIte, dictSet]
    rw [← hdemo]
    rfl
  have h2 : ((planeAfter (propModelOf table) { b with units := some none }).propAirfoil "prop" "sym" fp).2 =
      { b with units := some none, props := [("prop", { mkProp "prop" d with
          airfoils := [("NACA2412", Airfoil.default "NACA2412"), ("sym", demoFoil)] })] } := by
    have hpa : planeAfter (propModelOf table) { b with units := some none } =
        { b with units := some none, props := [("prop", (mkProp "prop" d).equipped)] } := by
      unfold planeAfter
      have := hwp b.props
      rw [show ({ b with units := some none, props := b.props } : Plane) = { b with units := some none } from rfl] at this
      rw [this]
      simp only [Plane.getUnits, hprops, propsAfter]
      have hae : (mkProp "prop" d).afterError = (mkProp "prop" d).equipped := by
        unfold PropGeom.afterError; rw [if_neg]; simp [mkProp, d]
      cases propModelOf table (mkProp "prop" d) b.cg none (Option.map _ (none : Option WingPart)) with
      | ok M => rfl
      | error e => simp only [hae]
    rw [hpa]
    have heq : (mkProp "prop" d).equipped = { mkProp "prop" d with airfoils := [("NACA2412", Airfoil.default "NACA2412")] } := by
      unfold PropGeom.equipped; rw [if_pos (show (mkProp "prop" d).airfoils = [] from rfl)]
    unfold Plane.propAirfoil
    rw [hfoil, heq]
    simp [dictGet, dictSet]
  have hgood : ∃ o, mkMachUp (propModelOf table) (({ b with units := some none } : Plane).propAirfoil "prop" "sym" fp).2 = .ok o := by
    rw [h1, key]
    obtain ⟨M, hM, -⟩ := demo_ok (ι := ℕ) table b.cg none none
    rw [hM]
    exact ⟨_, rfl⟩
  have hall' := hall "p" none [.addProp "prop" d] none "prop" "sym" fp
  rw [hb] at hall'
  obtain ⟨o, ho⟩ := hall' hgood
  rw [h2, key] at ho
  have : mkPropM (ι := ℕ) table { mkProp "prop" d with
      airfoils := [("NACA2412", Airfoil.default "NACA2412"), ("sym", demoFoil)] } b.cg none none = .error .runtime := by
    unfold mkPropM
    rw [if_neg (by simp [mkProp, d]), if_neg (by simp [mkProp, d])]
    rfl
  rw [this] at ho
  cases ho

end Verif
