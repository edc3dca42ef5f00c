import Verif.Lemmas.Imitate
import Verif.Lemmas.OutOfWay
import Verif.Thm.CraftMove
import Verif.Spec.PropNames

/-! Helper lemmas: propellers with other names (C148). -/

namespace Verif
open V3 Act

/-- the model of the propeller with another name -/
def PropM.named {ι : Type} (M : PropM ι) (n : String) : PropM ι := { M with geom := { M.geom with name := n } }

theorem simM_named {ι : Type} (M : PropM ι) (n : String) : SimM (moveScl 0) M (M.named n) where
  nodes := rfl
  d := (one_mul _).symm
  blades := rfl
  stn := by funext i; simp [moveScl, Stn.scale, PropM.named]
  motor := rfl
  units := rfl
  pos := by simp [moveScl, PropM.named]
  fwd := rfl
  rot := rfl
  cg := by simp [moveScl, PropM.named]

theorem PropOut.sim_same (o : PropOut) : o.sim (moveScl 0) = o := by
  cases o
  simp [PropOut.sim, moveScl, Scl.a, Scl.r, cross]
  rfl

theorem forcesOf_named {ι : Type} (M : PropM ι) (nm : String) (fl : PFlow) (n : ℝ) (c : Coefs) :
    forcesOf (M.named nm) fl n c = forcesOf M fl n c := by
  have := forcesOf_sim (simM_named M nm) (fl := fl) (fl' := fl) (one_mul _).symm rfl n c
  rw [show (moveScl 0).r * n = n by simp [moveScl, Scl.r]] at this
  rw [this]
  cases forcesOf M fl n c with
  | error e => rfl
  | ok o => exact congrArg Except.ok (PropOut.sim_same o)

theorem runProp_named {ι : Type} (M : PropM ι) (nm : String) (simps : List ℝ → List ℝ → ℝ) (fuel : ℕ) (a : Option (AeroDict ι)) (s : PropDict) :
    runProp simps fuel (M.named nm) a s = runProp simps fuel M a s := by
  have h := simM_named M nm
  have hd1 : (M.named nm).d = M.d := rfl
  have hs : setPropDict (M.named nm) = setPropDict M := by funext V s; unfold setPropDict; simp only [hd1]
  have hc : coefsAtRate (M.named nm) simps fuel = coefsAtRate M simps fuel := by
    funext V n; unfold coefsAtRate; rw [h.findCoefs, hd1]
  have h1 : ∀ fl P, powerDiff (M.named nm) simps fuel fl P = powerDiff M simps fuel fl P := by
    intro fl P; funext n; unfold powerDiff; rw [hc, hd1]
  have h2 : ∀ fl m t, torqueDiff (M.named nm) simps fuel fl m t = torqueDiff M simps fuel fl m t := by
    intro fl m t; funext n; unfold torqueDiff; rw [hc, hd1, h.units]
  have hdc : driveCoefs (M.named nm) simps fuel = driveCoefs M simps fuel := by
    funext fl dr
    unfold driveCoefs
    cases dr with
    | atJ J => simp only [h.findCoefs]
    | power P => simp only [h1, hd1]
    | motor t =>
      simp only [h.motor]
      cases M.motor with
      | none => rfl
      | some m => simp only [h2, hd1]
  have hcf : calcForces (M.named nm) simps fuel = calcForces M simps fuel := by
    funext fl dr
    unfold calcForces
    simp only [hdc, h.nodes, forcesOf_named]
  unfold runProp
  rw [hs, hcf]

theorem propVel_named {ι : Type} (M : PropM ι) (nm : String) (V n : ℝ) (c : Coefs) (p : V3) :
    propVel (M.named nm) V n c p = propVel M V n c p := by
  have := propVel_sim (V := V) (n := n) (c := c) (p := p) (simM_named M nm)
  simp only [moveScl, Scl.r, one_mul, div_one, one_smul, add_zero] at this
  rw [this]
  cases propVel M V n c p <;> rfl

theorem pointVel_named {ι : Type} (f : PropM ι → String) (fl : PFlow) (p : V3) : ∀ l : List (PropM ι × PropOut),
    pointVel fl p (l.map fun x => (x.1.named (f x.1), x.2)) = pointVel fl p l := by
  intro l
  induction l with
  | nil => rfl
  | cons x t ih =>
    obtain ⟨M, o⟩ := x
    simp only [List.map_cons, pointVel, propVel_named, ih]

theorem dictGet_rename {α : Type*} {ρ : String → String} (hρ : Function.Injective ρ) (d : List (String × α)) (k : String) :
    dictGet (d.map fun kv => (ρ kv.1, kv.2)) (ρ k) = dictGet d k := by
  induction d with
  | nil => rfl
  | cons a t ih =>
    simp only [List.map_cons, dictGet, hρ.eq_iff, ih]

theorem dictSet_rename {α : Type*} {ρ : String → String} (hρ : Function.Injective ρ) (d : List (String × α)) (k : String) (x : α) :
    dictSet (d.map fun kv => (ρ kv.1, kv.2)) (ρ k) x = (dictSet d k x).map fun kv => (ρ kv.1, kv.2) := by
  induction d with
  | nil => rfl
  | cons a t ih =>
    simp only [List.map_cons, dictSet, hρ.eq_iff]
    split <;> simp [ih]

section
variable {ρ : String → String} (hρ : Function.Injective ρ) (hw : ∀ w ∈ stateWords, ρ w = w)
include hρ hw

theorem renameProps_get (s : PropDict) {w : String} (h : w ∈ stateWords) : dictGet (s.renameProps ρ) w = dictGet s w := by
  conv_lhs => rw [← hw w h]
  exact dictGet_rename hρ s w

theorem setPropDict_rename {ι : Type} (M : PropM ι) (V : ℝ) (s : PropDict) : setPropDict M V (s.renameProps ρ) = setPropDict M V s := by
  have h0 : s.renameProps ρ = [] ↔ s = [] := by simp [PropDict.renameProps]
  have k1 := renameProps_get hρ hw s (w := "J") (by simp [stateWords])
  have k2 := renameProps_get hρ hw s (w := "rot_per_sec") (by simp [stateWords])
  have k3 := renameProps_get hρ hw s (w := "brake_power") (by simp [stateWords])
  have k4 := renameProps_get hρ hw s (w := "electric_throttle") (by simp [stateWords])
  unfold setPropDict psReal
  by_cases h : s = []
  · rw [if_pos h, if_pos (h0.2 h)]
  · rw [if_neg h, if_neg (fun q => h (h0.1 q))]
    simp only [k1, k2, k3, k4]

theorem runProp_rename {ι : Type} (M : PropM ι) (simps : List ℝ → List ℝ → ℝ) (fuel : ℕ) (a : Option (AeroDict ι)) (s : PropDict) :
    runProp simps fuel M a (s.renameProps ρ) = runProp simps fuel M a s := by
  unfold runProp
  simp only [setPropDict_rename hρ hw]

omit hw in
/-- the state a renamed propeller gets is the one it got, up to names -/
theorem localPS_rename (ps : PropDict) (n : String) :
    (∃ e, localPS ps n = .error e ∧ localPS (ps.renameProps ρ) (ρ n) = .error e) ∨
    ∃ s, localPS ps n = .ok s ∧ (localPS (ps.renameProps ρ) (ρ n) = .ok s ∨ localPS (ps.renameProps ρ) (ρ n) = .ok (s.renameProps ρ)) := by
  have h0 : ps.renameProps ρ = [] ↔ ps = [] := by simp [PropDict.renameProps]
  unfold localPS
  by_cases h : ps = []
  · rw [if_pos h, if_pos (h0.2 h)]; exact .inr ⟨_, rfl, .inl rfl⟩
  · rw [if_neg h, if_neg (fun q => h (h0.1 q))]
    rw [show dictGet (ps.renameProps ρ) (ρ n) = dictGet ps n from dictGet_rename hρ ps n]
    rcases dictGet ps n with _ | x | d
    · exact .inr ⟨_, rfl, .inr rfl⟩
    · by_cases hx : x = 0
      · simp only [hx, if_true]; exact .inr ⟨_, rfl, .inl rfl⟩
      · simp only [hx, if_false]; exact .inl ⟨_, rfl, rfl⟩
    · exact .inr ⟨_, rfl, .inl rfl⟩

theorem propsLoop_rename {ι : Type} (simps : List ℝ → List ℝ → ℝ) (fuel : ℕ) (a : Option (AeroDict ι)) (ps : PropDict) :
    ∀ (sls : List (PropSlot ι)) (acc : PropAcc), propsLoop simps fuel a (ps.renameProps ρ) (sls.map (·.renamed ρ)) acc =
      ((propsLoop simps fuel a ps sls acc).1, (propsLoop simps fuel a ps sls acc).2.map (·.renamed ρ)) := by
  intro sls
  induction sls with
  | nil => intro acc; rfl
  | cons sl t ih =>
    intro acc
    have hr : ∀ s' s, localPS ps sl.name = .ok s → (s' = s ∨ s' = s.renameProps ρ) →
        runProp simps fuel (sl.renamed ρ).model a s' (sl.renamed ρ).st = runProp simps fuel sl.model a s sl.st := by
      intro s' s _ hs
      have e : runProp simps fuel (sl.renamed ρ).model a s' = runProp simps fuel sl.model a s' := runProp_named sl.model _ simps fuel a s'
      rw [e]
      rcases hs with rfl | rfl
      · rfl
      · rw [runProp_rename hρ hw]; rfl
    rw [List.map_cons]
    unfold propsLoop
    rcases localPS_rename hρ ps sl.name with ⟨e, h1, h2⟩ | ⟨s, h1, h2⟩
    · rw [h1, show localPS (ps.renameProps ρ) (sl.renamed ρ).name = .error e from h2]
      rfl
    · obtain ⟨s', h3, h4⟩ : ∃ s', localPS (ps.renameProps ρ) (sl.renamed ρ).name = .ok s' ∧ (s' = s ∨ s' = s.renameProps ρ) := by
        rcases h2 with h | h
        · exact ⟨_, h, .inl rfl⟩
        · exact ⟨_, h, .inr rfl⟩
      rw [h1, h3]
      simp only [hr s' s h1 h4]
      rcases runProp simps fuel sl.model a s sl.st with ⟨e | o, st⟩
      · rfl
      · simp only [ih]
        rcases propsLoop simps fuel a ps t { F := acc.F + o.F, M := acc.M + o.M, last := some (o.T, o.l) } with ⟨e | ⟨acc', outs⟩, rest⟩ <;> rfl

theorem propsSolve_rename {ι : Type} (simps : List ℝ → List ℝ → ℝ) (fuel : ℕ) (pts : Option (ι → V3)) (a : Option (AeroDict ι)) (ps : PropDict)
    (sls : List (PropSlot ι)) : propsSolve simps fuel pts a (ps.renameProps ρ) (sls.map (·.renamed ρ)) =
      ((propsSolve simps fuel pts a ps sls).1, (propsSolve simps fuel pts a ps sls).2.map (·.renamed ρ)) := by
  have hF : propsForces simps fuel a (ps.renameProps ρ) (sls.map (·.renamed ρ)) =
      ((propsForces simps fuel a ps sls).1, (propsForces simps fuel a ps sls).2.map (·.renamed ρ)) := by
    unfold propsForces
    rw [propsLoop_rename hρ hw]
    rcases propsLoop simps fuel a ps sls {} with ⟨e | ⟨acc, outs⟩, s⟩
    · rfl
    · cases a with
      | none => rfl
      | some d =>
        simp only
        cases freestream 1 (d.alpha.getD 0) (d.beta.getD 0) with
        | none => rfl
        | some u =>
          simp only
          cases rotateForces u acc.F with
          | error e => rfl
          | ok x => cases acc.last <;> rfl
  unfold propsSolve
  rw [bind_def, bind_def, hF]
  rcases propsForces simps fuel a ps sls with ⟨e | ⟨tot, outs⟩, s⟩
  · rfl
  · cases pts with
    | none => rfl
    | some p =>
      simp only
      cases propFlow a with
      | error e => rfl
      | ok fl =>
        simp only [lift_ok_bind]
        have hv : ∀ i, pointVel fl (p i) (((s.map (·.renamed ρ)).map PropSlot.model).zip outs) = pointVel fl (p i) ((s.map PropSlot.model).zip outs) := by
          intro i
          rw [← pointVel_named (fun M => ρ M.geom.name) fl (p i) ((s.map PropSlot.model).zip outs)]
          congr 1
          rw [show (s.map (·.renamed ρ)).map PropSlot.model = (s.map PropSlot.model).map fun M => M.named (ρ M.geom.name) by
            rw [List.map_map, List.map_map]; rfl, List.zip_map_left]
          rfl
        rw [get_bind, get_bind]
        simp only [hv]
        by_cases hc : ∀ i, (pointVel fl (p i) ((s.map PropSlot.model).zip outs)).toBool = true
        · rw [if_pos hc, if_pos (fun i => by rw [hv]; exact hc i)]; rfl
        · rw [if_neg hc, if_neg (fun q => hc fun i => by rw [← hv]; exact q i)]; rfl

end

/-! ### Building the aircraft -/

/-- a propeller with another name -/
def PropGeom.renamed (ρ : String → String) (q : PropGeom) : PropGeom := { q with name := ρ q.name }

/-- the aircraft with other names of the propellers -/
def Plane.renameProps (ρ : String → String) (p : Plane) : Plane := { p with props := p.props.map fun kv => (ρ kv.1, kv.2.renamed ρ) }

theorem rename_values {α : Type*} (ρ : String → String) (f : α → α) (d : List (String × α)) :
    (d.map fun kv => (ρ kv.1, f kv.2)) = (d.map fun kv => (kv.1, f kv.2)).map fun kv => (ρ kv.1, kv.2) := by
  rw [List.map_map]; rfl

theorem dictSet_rename' {α : Type*} {ρ : String → String} (hρ : Function.Injective ρ) (f : α → α) (d : List (String × α)) (k : String) (x : α) :
    dictSet (d.map fun kv => (ρ kv.1, f kv.2)) (ρ k) (f x) = (dictSet d k x).map fun kv => (ρ kv.1, f kv.2) := by
  rw [rename_values, dictSet_rename hρ, ← dictSet_map (fun _ => f), List.map_map]; rfl

theorem dictGet_rename' {α : Type*} {ρ : String → String} (hρ : Function.Injective ρ) (f : α → α) (d : List (String × α)) (k : String) :
    dictGet (d.map fun kv => (ρ kv.1, f kv.2)) (ρ k) = (dictGet d k).map f := by
  rw [rename_values, dictGet_rename hρ, dictGet_mapKey (fun _ => f)]

theorem built_renameProps {ρ : String → String} (hρ : Function.Injective ρ) (nm : String) (pos : Option V3) (ops : List PlaneOp) :
    built nm pos (ops.map (PlaneOp.renameProps ρ)) = (built nm pos ops).renameProps ρ := by
  have key : ∀ (ops : List PlaneOp) (p : Plane), runOps (p.renameProps ρ) (ops.map (PlaneOp.renameProps ρ)) = (runOps p ops).renameProps ρ := by
    intro ops
    induction ops with
    | nil => intro p; rfl
    | cons c ops ih =>
      intro p
      show runOps ((c.renameProps ρ).run (p.renameProps ρ)) (ops.map (PlaneOp.renameProps ρ)) = (runOps (c.run p) ops).renameProps ρ
      rw [← ih (c.run p)]
      congr 1
      cases c with
      | addProp n d =>
        simp only [PlaneOp.renameProps, PlaneOp.run, Plane.addProp, Plane.renameProps]
        congr 1
        exact dictSet_rename' hρ (PropGeom.renamed ρ) p.props n (mkProp n d)
      | propAirfoil n a pr =>
        simp only [PlaneOp.renameProps, PlaneOp.run, Plane.propAirfoil]
        cases mkAirfoil a pr with
        | error e => rfl
        | ok x =>
          simp only [Plane.renameProps, dictGet_rename' hρ (PropGeom.renamed ρ)]
          cases dictGet p.props n with
          | none => rfl
          | some q =>
            simp only [Option.map_some]
            congr 1
            exact dictSet_rename' hρ (PropGeom.renamed ρ) p.props n { q with airfoils := dictSet q.airfoils a x }
      | addWing n par loc side d =>
        simp only [PlaneOp.renameProps, PlaneOp.run, Plane.addWing, Plane.renameProps]
        cases mkWing n side d with
        | error e => rfl
        | ok w => simp only; split <;> rfl
      | airfoil id n e pr =>
        simp only [PlaneOp.renameProps, PlaneOp.run, Plane.wingAirfoil]
        cases mkAirfoil n pr <;> rfl
      | controlSurface id pr =>
        simp only [PlaneOp.renameProps, PlaneOp.run, Plane.wingCtrl]
        cases mkCtrlSurf pr <;> rfl
      | _ => rfl
  exact key ops (newPlane nm pos)

theorem mkPropM_renamed {ι : Type} (table : String → ℝ → ℝ) (ρ : String → String) (q : PropGeom) (cg : V3) (u : Option String) (pts : Option (ι → V3)) :
    mkPropM table (q.renamed ρ) cg u pts = (mkPropM table q cg u pts).map fun M => M.named (ρ M.geom.name) := by
  have e1 : bladeAf (q.renamed ρ) = bladeAf q := rfl
  have e2 : ∀ z r a, bladePitch table (q.renamed ρ) z r a = bladePitch table q z r a := fun _ _ _ => rfl
  have e3 : ∀ z, bladeChord table (q.renamed ρ) z = bladeChord table q z := fun _ => rfl
  have e4 : ∀ i, zetaAt (q.renamed ρ) i = zetaAt q i := fun _ => rfl
  have e5 : ∀ a i, stnAt table (q.renamed ρ) a i = stnAt table q a i := fun _ _ => rfl
  unfold mkPropM
  simp only [e1, e2, e3, e4, e5, show (q.renamed ρ).diameter = q.diameter from rfl, show (q.renamed ρ).nodes = q.nodes from rfl,
    show (q.renamed ρ).motor = q.motor from rfl]
  split
  · rfl
  · split
    · rfl
    · cases bladeAf q with
      | error e => rfl
      | ok af =>
        simp only [bind, Except.bind]
        cases bladePitch table q (zetaAt q 0) (zetaAt q 0 * q.diameter * 0.5) (af 0).aL0 with
        | error e => rfl
        | ok _ =>
          simp only
          cases bladeChord table q (zetaAt q 0) with
          | error e => rfl
          | ok _ =>
            simp only
            cases calcMotor q.motor with
            | error e => rfl
            | ok m =>
              simp only
              split <;> rfl

theorem openProps_renamed {ι : Type} (table : String → ℝ → ℝ) {mem mem' : String → ℕ → ℕ → Option ℝ} {ρ : String → String} (hρ : Function.Injective ρ)
    (hm : ∀ n, mem' (ρ n) = mem n) (p : Plane) (pts : Option (ι → V3)) :
    openProps table mem' (p.renameProps ρ) pts = (openProps table mem p pts).map fun s => s.map (·.renamed ρ) := by
  let φ : PropM ι → PropM ι := fun M => M.named (ρ M.geom.name)
  have key : ∀ (L : List PropGeom) (d : List (String × PropM ι)),
      (L.map (PropGeom.renamed ρ)).foldlM (fun (d : List (String × PropM ι)) q => do
        let u ← (p.renameProps ρ).getUnits
        let m ← mkPropM table q (p.renameProps ρ).cg u pts
        return dictSet d q.name m) (d.map fun (kv : String × PropM ι) => (ρ kv.1, φ kv.2)) =
      (L.foldlM (fun (d : List (String × PropM ι)) q => do
        let u ← p.getUnits
        let m ← mkPropM table q p.cg u pts
        return dictSet d q.name m) d).map fun (d : List (String × PropM ι)) => d.map fun (kv : String × PropM ι) => (ρ kv.1, φ kv.2) := by
    intro L d
    rw [List.foldlM_map]
    refine foldlM_image (fun (d : List (String × PropM ι)) => d.map fun (kv : String × PropM ι) => (ρ kv.1, φ kv.2)) ?_ L d
    intro d q
    rw [show (p.renameProps ρ).getUnits = p.getUnits from rfl, show (p.renameProps ρ).cg = p.cg from rfl]
    cases p.getUnits with
    | error e => rfl
    | ok u =>
      simp only [bind, Except.bind]
      rw [mkPropM_renamed table ρ q p.cg u pts]
      cases mkPropM table q p.cg u pts with
      | error e => rfl
      | ok m =>
        simp only [Except.map, pure, Except.pure]
        exact congrArg Except.ok (dictSet_rename' hρ φ d q.name m)
  have k := key (p.props.map Prod.snd) []
  unfold openProps
  have hp : (p.renameProps ρ).props.map Prod.snd = (p.props.map Prod.snd).map (PropGeom.renamed ρ) := by
    simp only [Plane.renameProps, List.map_map]; rfl
  rw [hp]
  rw [List.map_nil] at k
  rw [k]
  cases ((p.props.map Prod.snd).foldlM (fun d q => do
        let u ← p.getUnits
        let m ← mkPropM table q p.cg u pts
        return dictSet d q.name m) ([] : List (String × PropM ι)) : Except PyErr (List (String × PropM ι))) with
  | error e => rfl
  | ok d =>
    simp only [Except.map, bind, Except.bind, pure, Except.pure, List.map_map]
    refine congrArg Except.ok (List.map_congr_left fun kv _ => ?_)
    simp only [Function.comp_apply, hm]
    rfl

end Verif
