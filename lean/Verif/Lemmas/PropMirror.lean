import Verif.Lemmas.PlaneMirror
import Verif.Lemmas.LLInputs
import Verif.Thm.PropState
import Verif.Thm.StlCall

/-! Helper lemmas: the mirror image of a propeller. -/

namespace Verif
open V3 Act

theorem cross_mir (a b : V3) : cross (mir a) (mir b) = -mir (cross a b) := by ext <;> simp [cross] <;> ring
theorem dot_mir (a b : V3) : dot (mir a) (mir b) = dot a b := by simp [dot]

theorem mkProp_mirror (name : String) (d : PropDims) : mkProp name d.mirror = (mkProp name d).mirror := by
  unfold mkProp PropGeom.mirror PropDims.mirror
  cases d.position <;> cases d.orientation <;> simp <;> ext <;> simp

theorem rot_opposite (q : PropGeom) : q.mirror.rot = -q.rot := by
  unfold PropGeom.mirror PropGeom.rot
  rcases h : q.rotDir with s | x
  · simp only [RotArg.opposite]
    by_cases h1 : s = "CW" ∨ s = "cw"
    · rw [if_pos h1]
      rcases h1 with rfl | rfl <;> simp
    · rw [if_neg h1]
      simp only [h1, if_false, ite_self]
      rw [if_neg (by decide)]
      simp
  · simp only [RotArg.opposite]
    by_cases h1 : x = -1
    · subst h1; norm_num
    · rw [if_neg h1]
      simp only [h1, if_false, ite_self]
      norm_num

theorem propForward_mirror (q : PropGeom) : propForward q.mirror = mir (propForward q) := by
  have h : ∀ x : ℝ, rad (-x) = -rad x := fun x => by unfold rad; ring
  unfold propForward PropGeom.mirror
  simp only [h, Real.sin_neg, Real.cos_neg]
  ext <;> simp

/-- `M'` is the mirror image of the propeller model `M` -/
structure MirM {ι ι' : Type} (M : PropM ι) (M' : PropM ι') : Prop where
  nodes : M'.nodes = M.nodes
  d : M'.d = M.d
  blades : M'.blades = M.blades
  stn : M'.stn = M.stn
  motor : M'.motor = M.motor
  units : M'.units = M.units
  pos : M'.geom.position = mir M.geom.position
  fwd : M'.fwd = mir M.fwd
  rot : M'.rot = -M.rot
  cg : M'.cg = mir M.cg

section
variable {ι ι' : Type} {M : PropM ι} {M' : PropM ι'} (h : MirM M M') (simps : List ℝ → List ℝ → ℝ) (fuel : ℕ)
include h

theorem MirM.getCL : getCL M' = getCL M := by
  funext a; unfold Verif.getCL; rw [h.nodes, h.stn]

theorem MirM.getCD : getCD M' = getCD M := by
  funext a b; unfold Verif.getCD; rw [h.nodes, h.stn]

theorem MirM.getCLa : getCLa M' = getCLa M := by
  funext a; unfold Verif.getCLa; rw [h.getCL]

theorem MirM.goldstein : goldstein M' = goldstein M := by
  funext a; unfold Verif.goldstein; rw [h.nodes, h.stn, h.blades]

theorem MirM.eiFunction : eiFunction M' = eiFunction M := by
  funext a b; unfold Verif.eiFunction; rw [h.getCL, h.goldstein, h.nodes, h.stn]

theorem MirM.eiLoop (einf : ℕ → ℝ) (f : ℕ) : ∀ k x0 x1 x2 y0 y1,
    eiLoop M' einf f k x0 x1 x2 y0 y1 = eiLoop M einf f k x0 x1 x2 y0 y1 := by
  induction f with
  | zero => intros; rfl
  | succ f ih =>
    intro k x0 x1 x2 y0 y1
    unfold Verif.eiLoop
    simp only [h.nodes, h.stn, h.eiFunction, ih]

theorem MirM.findEi : findEi M' fuel = findEi M fuel := by
  funext a; unfold Verif.findEi; rw [h.eiFunction]
  simp only [h.eiLoop]

theorem MirM.overBlade : overBlade M' simps = overBlade M simps := by
  funext a; unfold Verif.overBlade; rw [h.nodes, h.stn]

theorem MirM.coefsAt : coefsAt M' simps = coefsAt M simps := by
  funext a b; unfold Verif.coefsAt
  simp only [h.getCL, h.getCD, h.getCLa, h.stn, h.overBlade]

theorem MirM.findCoefs : findCoefs M' simps fuel = findCoefs M simps fuel := by
  funext J; unfold Verif.findCoefs
  simp only [h.findEi, h.coefsAt, h.nodes, h.stn, h.goldstein]

theorem MirM.coefsAtRate : coefsAtRate M' simps fuel = coefsAtRate M simps fuel := by
  funext V n; unfold Verif.coefsAtRate
  rw [h.findCoefs, h.d]

theorem MirM.driveCoefs {fl fl' : PFlow} (hV : fl'.V = fl.V) (hr : fl'.rho = fl.rho) (dr : Drive) :
    driveCoefs M' simps fuel fl' dr = driveCoefs M simps fuel fl dr := by
  have h1 : ∀ P, powerDiff M' simps fuel fl' P = powerDiff M simps fuel fl P := by
    intro P; funext n; unfold powerDiff; rw [h.coefsAtRate, h.d, hV, hr]
  have h2 : ∀ m t, torqueDiff M' simps fuel fl' m t = torqueDiff M simps fuel fl m t := by
    intro m t; funext n; unfold torqueDiff; rw [h.coefsAtRate, h.d, h.units, hV, hr]
  unfold Verif.driveCoefs
  cases dr with
  | atJ J => simp only [h.findCoefs]
  | power P => simp only [h1, h.d]
  | motor t =>
    simp only [h.motor]
    cases M.motor with
    | none => rfl
    | some m => simp only [h2, h.d]

theorem MirM.setPropDict : setPropDict M' = setPropDict M := by
  funext V s; unfold Verif.setPropDict; simp only [h.d]

end

/-- the mirrored result of a propeller -/
def PropOut.mirror (o : PropOut) : PropOut :=
  { o with F := mir o.F, M := -mir o.M, l := -o.l }

theorem forcesOf_mirror {ι ι' : Type} {M : PropM ι} {M' : PropM ι'} (h : MirM M M') {fl fl' : PFlow} (hV : fl'.V = fl.V)
    (hr : fl'.rho = fl.rho) (hu : fl'.u = mir fl.u) (n : ℝ) (c : Coefs) :
    forcesOf M' fl' n c = (forcesOf M fl n c).map PropOut.mirror := by
  have ha : vecAngle (mir M.fwd) (-mir fl.u) = vecAngle M.fwd (-fl.u) := by
    unfold vecAngle
    rw [← mir_neg, dot_mir, nrm_mir, nrm_mir]
  have hd : cross (cross (-mir fl.u) (mir M.fwd)) (mir M.fwd) = mir (cross (cross (-fl.u) M.fwd) M.fwd) := by
    rw [← mir_neg, cross_mir, ← mir_neg, cross_mir]
    ext <;> simp [cross] <;> ring
  unfold forcesOf
  simp only [bind, Except.bind, hr, h.d, h.pos, h.cg, h.fwd, h.rot, hu, ha, hd]
  generalize vecAngle M.fwd (-fl.u) = a
  generalize cross (cross (-fl.u) M.fwd) M.fwd = D
  simp only [mir_x, mir_y, mir_z, neg_sq]
  split_ifs with h1 h2
  · simp only [pure, Except.pure, Except.map, Except.ok.injEq, PropOut.mirror, PropOut.mk.injEq, and_true, true_and]
    refine ⟨?_, ?_, ?_⟩
    · ext <;> simp
    · ext <;> simp <;> ring
    · ring
  · rfl
  · simp only [pure, Except.pure, Except.map, Except.ok.injEq, PropOut.mirror, PropOut.mk.injEq, and_true, true_and]
    refine ⟨?_, ?_, ?_⟩
    · ext <;> simp
      ring
    · ext <;> simp <;> ring
    · ring

section
variable {ι ι' : Type} {M : PropM ι} {M' : PropM ι'} (h : MirM M M') (V n : ℝ) (c : Coefs) (p : V3)
include h

theorem MirM.streamT : streamT M' (mir p) = streamT M p := by
  unfold Verif.streamT; rw [h.pos, h.fwd, ← mir_sub, dot_mir]

theorem MirM.offAxis : offAxis M' (mir p) = mir (offAxis M p) := by
  unfold Verif.offAxis; rw [h.pos, h.fwd, h.streamT, ← mir_smul, ← mir_add, ← mir_sub]

theorem MirM.axisDist : axisDist M' (mir p) = axisDist M p := by
  unfold Verif.axisDist; rw [h.offAxis, nrm_mir]

theorem MirM.tangentAt : tangentAt M' (mir p) = -mir (tangentAt M p) := by
  unfold Verif.tangentAt; rw [h.offAxis, h.fwd, cross_mir]

theorem MirM.inStream : InStream M' (mir p) ↔ InStream M p := by
  unfold Verif.InStream; rw [h.streamT, h.axisDist, h.d]

theorem MirM.vxiAt : vxiAt M' n c = vxiAt M n c := by
  funext i; unfold Verif.vxiAt viAt; rw [h.stn]
theorem MirM.vtiAt : vtiAt M' n c = vtiAt M n c := by
  funext i; unfold Verif.vtiAt viAt; rw [h.stn]
theorem MirM.stoneKd : stoneKd M' = stoneKd M := by
  funext s; unfold Verif.stoneKd; rw [h.d]
theorem MirM.vx2 : vx2 M' n c = vx2 M n c := by
  funext i; unfold Verif.vx2; rw [h.vxiAt]
theorem MirM.stoneKv : stoneKv M' V n c = stoneKv M V n c := by
  funext s i; unfold Verif.stoneKv; rw [h.vx2, h.stoneKd]
theorem MirM.rPrime (s : ℝ) : rPrime M' V n c s = rPrime M V n c s := by
  funext i
  induction i with
  | zero => unfold Verif.rPrime; rw [h.stn]
  | succ i ih => unfold Verif.rPrime; rw [ih, h.stn, h.stoneKv]
theorem MirM.vxPrime (s : ℝ) : vxPrime M' n c s = vxPrime M n c s := by
  funext i; unfold Verif.vxPrime; rw [h.vxiAt, h.stoneKd]
theorem MirM.vtPrime (s : ℝ) : vtPrime M' V n c s = vtPrime M V n c s := by
  funext i; unfold Verif.vtPrime; simp only [h.vtiAt, h.rPrime, h.stn, h.nodes]
theorem MirM.stoneFinite (s : ℝ) : StoneFinite M' V n c s ↔ StoneFinite M V n c s := by
  unfold StoneFinite; simp only [h.nodes, h.stn, h.rPrime, h.stoneKv, h.stoneKd, h.vx2]

theorem propVel_mirror : propVel M' V n c (mir p) = (propVel M V n c p).map mir := by
  have hn : ∀ v : V3, nrm (-mir v) = nrm v := fun v => by rw [← mir_neg, nrm_mir]; simp [nrm, dot]
  unfold propVel
  by_cases h1 : InStream M p
  · rw [if_pos h1, if_pos (h.inStream p |>.2 h1)]
    have hs : StoneFinite M' V n c (-streamT M' (mir p)) ↔ StoneFinite M V n c (-streamT M p) := by
      rw [h.streamT, h.stoneFinite]
    by_cases h2 : ¬ StoneFinite M V n c (-streamT M p)
    · rw [if_pos h2, if_pos (show ¬ _ from fun q => h2 (hs.1 q))]
      rfl
    · rw [if_neg h2, if_neg (show ¬ ¬ _ from fun q => h2 fun q' => q (hs.2 q'))]
      simp only [h.streamT, h.axisDist, h.tangentAt, h.rPrime, h.vxPrime, h.vtPrime, h.nodes, h.fwd, h.rot, hn]
      by_cases h3 : nrm (tangentAt M p) = 0
      · rw [if_pos h3, if_pos h3]; rfl
      · rw [if_neg h3, if_neg h3]
        simp only [Except.map, Except.ok.injEq]
        generalize npInterp _ _ _ _ = a
        generalize npInterp _ _ _ _ = b
        refine V3.ext ?_ ?_ ?_ <;> simp <;> ring
  · rw [if_neg h1, if_neg (fun q => h1 (h.inStream p |>.1 q))]
    simp [Except.map]

end

/-! ### Construction -/

/-- the mirror image of a propeller model -/
noncomputable def PropM.mirror {ι ι' : Type} (pts' : Option (ι' → V3)) (M : PropM ι) : PropM ι' :=
  { geom := M.geom.mirror, stn := M.stn, motor := M.motor, pts := pts', cg := mir M.cg, units := M.units }

theorem mkPropM_mirror {ι ι' : Type} (table : String → ℝ → ℝ) (q : PropGeom) (cg : V3) (u : Option String)
    (pts : Option (ι → V3)) (pts' : Option (ι' → V3)) :
    mkPropM table q.mirror (mir cg) u pts' = (mkPropM table q cg u pts).map (PropM.mirror pts') := by
  unfold mkPropM
  rw [show bladeAf q.mirror = bladeAf q from rfl, show q.mirror.diameter = q.diameter from rfl, show q.mirror.nodes = q.nodes from rfl]
  split
  · rfl
  · split
    · rfl
    · cases bladeAf q with
      | error e => rfl
      | ok af =>
        simp only [bind, Except.bind]
        rw [show zetaAt q.mirror 0 = zetaAt q 0 from rfl, show bladePitch table q.mirror = bladePitch table q from rfl,
          show bladeChord table q.mirror = bladeChord table q from rfl]
        cases bladePitch table q (zetaAt q 0) (zetaAt q 0 * q.diameter * 0.5) (af 0).aL0 with
        | error e => rfl
        | ok _ =>
          simp only
          cases bladeChord table q (zetaAt q 0) with
          | error e => rfl
          | ok _ =>
            simp only
            rw [show q.mirror.motor = q.motor from rfl]
            cases calcMotor q.motor with
            | error e => rfl
            | ok m =>
              simp only
              simp only [show ∀ i, stnAt table q.mirror (af i) i = stnAt table q (af i) i from fun i => rfl]
              split <;> rfl

theorem mirM_mirror {ι ι' : Type} (M : PropM ι) (pts' : Option (ι' → V3)) : MirM M (M.mirror pts') := by
  constructor <;> simp only [PropM.nodes, PropM.d, PropM.blades, PropM.fwd, PropM.rot, PropM.mirror, propForward_mirror, rot_opposite] <;> rfl

/-! ### Running -/

section
variable {ι ι' : Type}

/-- `aero'` is the mirrored flow, as far as propellers are concerned -/
def FlowMir (aero : Option (AeroDict ι)) (aero' : Option (AeroDict ι')) : Prop :=
  match aero, aero' with
  | none, none => True
  | some d, some d' => d'.truthy = d.truthy ∧ d'.Vmag = d.Vmag ∧ d'.rho = d.rho ∧ d'.alpha.getD 0 = d.alpha.getD 0 ∧
      d'.beta.getD 0 = -d.beta.getD 0
  | _, _ => False

/-- mirrored velocity -/
def PFlow.mirror (fl : PFlow) : PFlow := { fl with u := mir fl.u }

theorem propFlow_mirror {aero : Option (AeroDict ι)} {aero' : Option (AeroDict ι')} (h : FlowMir aero aero') :
    propFlow aero' = (propFlow aero).map PFlow.mirror := by
  have h0 : mir ⟨-1, 0, 0⟩ = ⟨-1, 0, 0⟩ := by ext <;> simp
  unfold propFlow
  rcases aero with _ | d <;> rcases aero' with _ | d' <;> simp only [FlowMir] at h
  · simp [Except.map, PFlow.mirror, h0]
  · obtain ⟨h1, h2, h3, h4, h5⟩ := h
    simp only [h1, h2, h3, h4, h5, freestream_mir]
    split
    · cases freestream 1 (d.alpha.getD 0) (d.beta.getD 0) with
      | none => rfl
      | some u =>
        cases d.Vmag with
        | none => rfl
        | some V =>
          cases d.rho with
          | none => rfl
          | some r => rfl
    · simp [Except.map, PFlow.mirror, h0]

variable (simps : List ℝ → List ℝ → ℝ) (fuel : ℕ)

theorem runProp_mirror {M : PropM ι} {M' : PropM ι'} (h : MirM M M') {aero : Option (AeroDict ι)} {aero' : Option (AeroDict ι')}
    (ha : FlowMir aero aero') (s : PropDict) (st : PropSt) :
    runProp simps fuel M' aero' s st =
      ((runProp simps fuel M aero s st).1.map PropOut.mirror, (runProp simps fuel M aero s st).2) := by
  unfold runProp
  rw [propFlow_mirror ha]
  cases propFlow aero with
  | error e => rfl
  | ok fl =>
    simp only [Except.map, lift_ok_bind]
    show (setPropDict M' fl.V s >>= fun dr => calcForces M' simps fuel fl.mirror dr) st = _
    rw [h.setPropDict, bind_def, bind_def]
    rcases setPropDict M fl.V s st with ⟨e | dr, st1⟩
    · rfl
    · simp only
      unfold calcForces
      rw [h.driveCoefs simps fuel (fl := fl) (fl' := fl.mirror) rfl rfl, h.nodes, bind_def, bind_def]
      rcases driveCoefs M simps fuel fl dr st1 with ⟨e | c, st2⟩
      · rfl
      · simp only
        split
        · rfl
        · rw [get_bind, get_bind]
          unfold Act.lift
          rw [forcesOf_mirror h (fl' := fl.mirror) (fl := fl) rfl rfl rfl]
          rfl

/-- the mirror image of a propeller of a solver, in the same state; the names are related by `N` -/
structure SlotMir (N : String → String → Prop) (sl : PropSlot ι) (sl' : PropSlot ι') : Prop where
  name : N sl.name sl'.name
  model : MirM sl.model sl'.model
  st : sl'.st = sl.st

def PropAcc.mirror (a : PropAcc) : PropAcc := ⟨mir a.F, -mir a.M, a.last.map fun x => (x.1, -x.2)⟩

theorem propsLoop_mirror {N : String → String → Prop} {aero : Option (AeroDict ι)} {aero' : Option (AeroDict ι')} (ha : FlowMir aero aero') (ps : PropDict) (hN : ∀ a b, N a b → localPS ps b = localPS ps a)
    {sls : List (PropSlot ι)} {sls' : List (PropSlot ι')} (h : List.Forall₂ (SlotMir N) sls sls') : ∀ acc : PropAcc,
    (propsLoop simps fuel aero' ps sls' acc.mirror).1 =
        (propsLoop simps fuel aero ps sls acc).1.map (fun r => (r.1.mirror, r.2.map PropOut.mirror)) ∧
      List.Forall₂ (SlotMir N) (propsLoop simps fuel aero ps sls acc).2 (propsLoop simps fuel aero' ps sls' acc.mirror).2 := by
  induction h with
  | nil => intro acc; exact ⟨rfl, .nil⟩
  | @cons sl sl' rest rest' h1 h2 ih =>
    intro acc
    unfold propsLoop
    rw [hN _ _ h1.name, h1.st]
    cases localPS ps sl.name with
    | error e => exact ⟨rfl, .cons h1 h2⟩
    | ok s =>
      simp only
      rw [runProp_mirror simps fuel h1.model ha]
      rcases runProp simps fuel sl.model aero s sl.st with ⟨e | o, st⟩
      · exact ⟨rfl, .cons ⟨h1.name, h1.model, rfl⟩ h2⟩
      · simp only [Except.map]
        have e1 : ({ F := acc.mirror.F + o.mirror.F, M := acc.mirror.M + o.mirror.M, last := some (o.mirror.T, o.mirror.l) } : PropAcc) =
            PropAcc.mirror { F := acc.F + o.F, M := acc.M + o.M, last := some (o.T, o.l) } := by
          simp only [PropAcc.mirror, PropOut.mirror, mir_add, PropAcc.mk.injEq, Option.map_some, and_true, true_and]
          ext <;> simp <;> ring
        rw [e1]
        obtain ⟨k1, k2⟩ := ih { F := acc.F + o.F, M := acc.M + o.M, last := some (o.T, o.l) }
        revert k1 k2
        generalize propsLoop simps fuel aero' ps rest' _ = B
        generalize propsLoop simps fuel aero ps rest _ = A
        intro k1 k2
        rcases A with ⟨e | ⟨a, outs⟩, A2⟩ <;> rcases B with ⟨e' | ⟨b, outs'⟩, B2⟩ <;> simp [Except.map] at k1
        · subst k1
          exact ⟨rfl, .cons ⟨h1.name, h1.model, rfl⟩ k2⟩
        · obtain ⟨rfl, rfl⟩ := k1
          exact ⟨rfl, .cons ⟨h1.name, h1.model, rfl⟩ k2⟩

theorem rotateForces_mirror (u F : V3) :
    rotateForces (mir u) (mir F) = (rotateForces u F).map fun r => (r.1, r.2.1, -r.2.2) := by
  have e1 : cross (mir u) ⟨0, 1, 0⟩ = cross u ⟨0, 1, 0⟩ := by ext <;> simp [cross]
  unfold rotateForces
  simp only [e1, bind, Except.bind]
  have e2 : mir (cross u ⟨0, 1, 0⟩) = cross u ⟨0, 1, 0⟩ := by ext <;> simp [cross]
  cases hL : normalise (cross u ⟨0, 1, 0⟩) with
  | none => rfl
  | some L =>
    have hm : mir L = L := by
      have := normalise_mir (cross u ⟨0, 1, 0⟩)
      rw [e2, hL] at this
      simpa using this.symm
    have e3 : cross L (mir u) = -mir (cross L u) := by rw [← cross_mir, hm]
    have e4 : ∀ v : V3, normalise (-v) = (normalise v).map (-·) := by
      intro v
      have : nrm (-v) = nrm v := by simp [nrm, dot]
      unfold normalise
      rw [this]
      split_ifs
      · rfl
      · unfold unit
        rw [this]
        simp
    simp only
    rw [e3, e4, normalise_mir]
    cases hS : normalise (cross L u) with
    | none => rfl
    | some S =>
      simp only [Option.map_some, pure, Except.pure, Except.map, Except.ok.injEq, Prod.mk.injEq]
      have hy : L.y = 0 := by
        have := congrArg V3.y hm
        simp at this
        linarith
      refine ⟨?_, ?_, ?_⟩
      · simp [dot, hy]
      · simp [dot]
      · simp [dot, hy]
        ring

/-- mirrored totals of the propellers: the side force, the rolling and yawing moment and the torque change sign -/
def PropTotals.mirror (t : PropTotals) : PropTotals := ⟨t.loads.mirror, t.thrust, -t.torque⟩

theorem propsForces_mirror {N : String → String → Prop} {aero : Option (AeroDict ι)} {aero' : Option (AeroDict ι')} (ha : FlowMir aero aero') (ps : PropDict) (hN : ∀ a b, N a b → localPS ps b = localPS ps a)
    {sls : List (PropSlot ι)} {sls' : List (PropSlot ι')} (h : List.Forall₂ (SlotMir N) sls sls') :
    (propsForces simps fuel aero' ps sls').1 =
        (propsForces simps fuel aero ps sls).1.map (fun r => (r.1.mirror, r.2.map PropOut.mirror)) ∧
      List.Forall₂ (SlotMir N) (propsForces simps fuel aero ps sls).2 (propsForces simps fuel aero' ps sls').2 := by
  have h0 : PropAcc.mirror {} = {} := by simp [PropAcc.mirror]
  have := propsLoop_mirror simps fuel ha ps hN h {}
  rw [h0] at this
  unfold propsForces
  revert this
  generalize propsLoop simps fuel aero' ps sls' _ = B
  generalize propsLoop simps fuel aero ps sls _ = A
  rintro ⟨k1, k2⟩
  rcases A with ⟨e | ⟨a, outs⟩, A2⟩ <;> rcases B with ⟨e' | ⟨b, outs'⟩, B2⟩ <;> simp [Except.map] at k1
  · subst k1
    exact ⟨rfl, k2⟩
  · obtain ⟨rfl, rfl⟩ := k1
    simp only
    rcases aero with _ | d <;> rcases aero' with _ | d' <;> simp only [FlowMir] at ha
    · exact ⟨rfl, k2⟩
    · obtain ⟨-, -, -, h4, h5⟩ := ha
      simp only [h4, h5, freestream_mir]
      cases freestream 1 (d.alpha.getD 0) (d.beta.getD 0) with
      | none => exact ⟨rfl, k2⟩
      | some u =>
        simp only [Option.map_some]
        have : a.mirror.F = mir a.F := rfl
        rw [this, rotateForces_mirror]
        rcases rotateForces u a.F with e | ⟨L, D, S⟩
        · exact ⟨rfl, k2⟩
        · rcases hl : a.last with _ | ⟨T, l⟩
          · simp only [Except.map, PropAcc.mirror, hl, Option.map_none]
            exact ⟨trivial, k2⟩
          · simp only [Except.map, PropAcc.mirror, hl, Option.map_some, PropTotals.mirror, Loads.mirror]
            refine ⟨?_, k2⟩
            simp

theorem pointVel_mirror (fl : PFlow) (p : V3) : ∀ {l : List (PropM ι × PropOut)} {l' : List (PropM ι' × PropOut)},
    List.Forall₂ (fun a b => MirM a.1 b.1 ∧ b.2.n = a.2.n ∧ b.2.c = a.2.c) l l' →
    pointVel fl.mirror (mir p) l' = (pointVel fl p l).map mir := by
  intro l l' h
  induction h with
  | nil => simp [pointVel, PFlow.mirror, Except.map, mir_smul]
  | @cons a b l l' h1 h2 ih =>
    obtain ⟨M, o⟩ := a
    obtain ⟨M', o'⟩ := b
    obtain ⟨hM, hn, hc⟩ := h1
    simp only at hM hn hc
    unfold pointVel
    rw [hn, hc, show fl.mirror.V = fl.V from rfl, propVel_mirror hM, ih]
    cases propVel M fl.V o.n o.c p with
    | error e => rfl
    | ok v =>
      cases pointVel fl p l with
      | error e => rfl
      | ok w =>
        simp [Except.map, bind, Except.bind, pure, Except.pure, mir_add]

theorem propsLoop_length (aero : Option (AeroDict ι)) (ps : PropDict) : ∀ (sls : List (PropSlot ι)) (acc : PropAcc) {r : PropAcc}
    {outs : List PropOut} {s2 : List (PropSlot ι)}, propsLoop simps fuel aero ps sls acc = (.ok (r, outs), s2) → outs.length = s2.length := by
  intro sls
  induction sls with
  | nil => intro acc r outs s2 h; cases h; rfl
  | cons sl rest ih =>
    intro acc r outs s2 h
    unfold propsLoop at h
    cases hl : localPS ps sl.name with
    | error e => rw [hl] at h; cases h
    | ok s =>
      rw [hl] at h
      simp only at h
      rcases hr : runProp simps fuel sl.model aero s sl.st with ⟨e | o, st⟩
      · rw [hr] at h; cases h
      · rw [hr] at h
        simp only at h
        rcases hq : propsLoop simps fuel aero ps rest { F := acc.F + o.F, M := acc.M + o.M, last := some (o.T, o.l) } with ⟨e | ⟨a, os⟩, s3⟩
        · rw [hq] at h; cases h
        · rw [hq] at h
          cases h
          simp [ih _ hq]

theorem propsSolve_mirror {N : String → String → Prop} (σ : ι ≃ ι') {aero : Option (AeroDict ι)} {aero' : Option (AeroDict ι')} (ha : FlowMir aero aero')
    (ps : PropDict) (hN : ∀ a b, N a b → localPS ps b = localPS ps a) {pts : Option (ι → V3)} {pts' : Option (ι' → V3)}
    (hp : pts' = pts.map fun f i' => mir (f (σ.symm i')))
    {sls : List (PropSlot ι)} {sls' : List (PropSlot ι')} (h : List.Forall₂ (SlotMir N) sls sls') :
    (propsSolve simps fuel pts' aero' ps sls').1 =
        (propsSolve simps fuel pts aero ps sls).1.map (fun r => (r.1.mirror,
          r.2.map fun f i' => ((f (σ.symm i')).1, mir (f (σ.symm i')).2))) ∧
      List.Forall₂ (SlotMir N) (propsSolve simps fuel pts aero ps sls).2 (propsSolve simps fuel pts' aero' ps sls').2 := by
  have hlen : ∀ {t outs s2}, propsForces simps fuel aero ps sls = (.ok (t, outs), s2) → outs.length = s2.length := by
    intro t outs s2 hq
    unfold propsForces at hq
    rcases hl : propsLoop simps fuel aero ps sls {} with ⟨e | ⟨a, os⟩, s3⟩
    · rw [hl] at hq; cases hq
    · rw [hl] at hq
      have := propsLoop_length simps fuel aero ps sls {} hl
      simp only at hq
      split at hq <;> try cases hq
      split at hq <;> try cases hq
      split at hq <;> try cases hq
      exact this
  have := propsForces_mirror simps fuel ha ps hN h
  unfold propsSolve
  rw [bind_def, bind_def]
  revert this hlen
  generalize propsForces simps fuel aero' ps sls' = B
  generalize propsForces simps fuel aero ps sls = A
  rintro hlen ⟨k1, k2⟩
  rcases A with ⟨e | ⟨a, outs⟩, A2⟩ <;> rcases B with ⟨e' | ⟨b, outs'⟩, B2⟩ <;> simp [Except.map] at k1
  · subst k1
    exact ⟨rfl, k2⟩
  · obtain ⟨rfl, rfl⟩ := k1
    have hl := hlen rfl
    subst hp
    rcases pts with _ | f
    · exact ⟨rfl, k2⟩
    · simp only [Option.map_some]
      rw [propFlow_mirror ha]
      cases propFlow aero with
      | error e => exact ⟨rfl, k2⟩
      | ok fl =>
        simp only [Except.map, lift_ok_bind, get_bind]
        have hz : List.Forall₂ (fun (a : PropM ι × PropOut) (b : PropM ι' × PropOut) => MirM a.1 b.1 ∧ b.2.n = a.2.n ∧ b.2.c = a.2.c)
            ((A2.map PropSlot.model).zip outs) ((B2.map PropSlot.model).zip (outs.map PropOut.mirror)) := by
          clear hlen
          change List.Forall₂ (SlotMir N) A2 B2 at k2
          change outs.length = A2.length at hl
          induction k2 generalizing outs with
          | nil => exact .nil
          | cons g1 g2 ih =>
            cases outs with
            | nil => exact .nil
            | cons o t =>
              simp only [List.length_cons, Nat.add_right_cancel_iff] at hl
              exact .cons ⟨g1.model, rfl, rfl⟩ (ih t hl)
        have hv : ∀ p, pointVel fl.mirror (mir p) ((B2.map PropSlot.model).zip (outs.map PropOut.mirror)) =
            (pointVel fl p ((A2.map PropSlot.model).zip outs)).map mir := fun p => pointVel_mirror fl p hz
        simp only [hv]
        have ht : ∀ r : Except PyErr V3, (r.map mir).toBool = r.toBool := by intro r; cases r <;> rfl
        have hg : ∀ r : Except PyErr V3, (r.map mir).toOption.getD 0 = mir (r.toOption.getD 0) := by
          intro r; cases r <;> simp [Except.map, Except.toOption]
        by_cases hall : ∀ i, (pointVel fl (f i) ((A2.map PropSlot.model).zip outs)).toBool
        · rw [if_pos hall, if_pos (fun i' => by rw [hv, ht]; exact hall _)]
          refine ⟨?_, k2⟩
          simp only [pure_run, hg]
          rfl
        · rw [if_neg hall, if_neg (fun q => hall fun i => by have := q (σ i); rw [hv, ht] at this; simpa using this)]
          exact ⟨rfl, k2⟩

end

/-! ### The aircraft -/

/-- the mirror image of an aircraft, with everything an analysis looks at -/
structure CraftMir (p p' : Plane) : Prop extends PlaneMir p p' where
  props : p'.props = p.props.map fun kv => (kv.1, kv.2.mirror)
  latRef : p'.latRef = p.latRef
  longRef : p'.longRef = p.longRef

theorem dictSet_mirror (d : List (String × PropGeom)) (k : String) (q : PropGeom) :
    dictSet (d.map fun kv => (kv.1, kv.2.mirror)) k q.mirror = (dictSet d k q).map fun kv => (kv.1, kv.2.mirror) := by
  induction d with
  | nil => rfl
  | cons a t ih =>
    simp only [List.map_cons, dictSet]
    split_ifs
    · rfl
    · rw [ih]; rfl

theorem dictGet_mirror (d : List (String × PropGeom)) (k : String) :
    dictGet (d.map fun kv => (kv.1, kv.2.mirror)) k = (dictGet d k).map PropGeom.mirror := by
  induction d with
  | nil => rfl
  | cons a t ih =>
    simp only [List.map_cons, dictGet]
    split_ifs
    · rfl
    · exact ih

theorem addWing_refs (p : Plane) (name : String) (parent : Option String) (location side : String) (d : WingDims) :
    (p.addWing name parent location side d).2.props = p.props ∧ (p.addWing name parent location side d).2.latRef = p.latRef ∧
      (p.addWing name parent location side d).2.longRef = p.longRef := by
  rw [addWing_eq]
  cases mkWing name side d with
  | error e => exact ⟨rfl, rfl, rfl⟩
  | ok w =>
    simp only
    cases targetOf (dictSet p.wings name p.heap.length) parent <;> exact ⟨rfl, rfl, rfl⟩

theorem CraftMir.run {p p' : Plane} (h : CraftMir p p') (op : PlaneOp) : CraftMir (op.run p) (op.mirror.run p') := by
  have hm := h.toPlaneMir.run op
  cases op with
  | addWing name parent location side d =>
    obtain ⟨a1, a2, a3⟩ := addWing_refs p name parent location side d
    obtain ⟨b1, b2, b3⟩ := addWing_refs p' name parent location (mirSide side) { d with position := d.position.map mir }
    exact ⟨hm, by simp only [PlaneOp.run, PlaneOp.mirror]; rw [a1, b1, h.props], b2.trans (h.latRef.trans a2.symm),
      b3.trans (h.longRef.trans a3.symm)⟩
  | airfoil id name e props =>
    refine ⟨hm, ?_, ?_, ?_⟩ <;> simp only [PlaneOp.run, PlaneOp.mirror, Plane.wingAirfoil] <;> cases mkAirfoil name props <;>
      first | exact h.props | exact h.latRef | exact h.longRef
  | controlSurface id props =>
    refine ⟨hm, ?_, ?_, ?_⟩ <;> simp only [PlaneOp.run, PlaneOp.mirror, Plane.wingCtrl] <;> cases mkCtrlSurf props <;>
      first | exact h.props | exact h.latRef | exact h.longRef
  | addProp name d =>
    refine ⟨hm, ?_, h.latRef, h.longRef⟩
    simp only [PlaneOp.run, PlaneOp.mirror, Plane.addProp]
    rw [h.props, mkProp_mirror, dictSet_mirror]
  | propAirfoil name af props =>
    refine ⟨hm, ?_, ?_, ?_⟩ <;> simp only [PlaneOp.run, PlaneOp.mirror, Plane.propAirfoil] <;> cases mkAirfoil af props with
    | error e => first | exact h.props | exact h.latRef | exact h.longRef
    | ok a =>
      simp only
      rw [h.props, dictGet_mirror]
      cases hq : dictGet p.props name with
      | none => first | exact h.props | exact h.latRef | exact h.longRef
      | some q =>
        first
        | exact h.latRef
        | exact h.longRef
        | (simp only [Option.map_some]
           rw [← dictSet_mirror]
           rfl)
  | cgLocation x y z => exact ⟨hm, h.props, h.latRef, h.longRef⟩
  | setRefLengths a b => 
    refine ⟨hm, h.props, ?_, ?_⟩ <;> simp only [PlaneOp.run, PlaneOp.mirror, Plane.setRefLengths, h.latRef, h.longRef]

theorem built_craft (nm : String) (pos : Option V3) (ops : List PlaneOp) :
    CraftMir (built nm pos ops) (built nm (pos.map mir) (ops.map PlaneOp.mirror)) := by
  have : ∀ (ops : List PlaneOp) (p p' : Plane), CraftMir p p' → CraftMir (runOps p ops) (runOps p' (ops.map PlaneOp.mirror)) := by
    intro ops
    induction ops with
    | nil => intro p p' h; exact h
    | cons op t ih => intro p p' h; exact ih _ _ (h.run op)
  exact this ops _ _ ⟨⟨.nil, rfl, by simp only [newPlane]; ext <;> simp, rfl⟩, rfl, rfl, rfl⟩

theorem PlaneMir.spans {p p' : Plane} (h : PlaneMir p p') : (p'.segments.map Seg.span).Perm (p.segments.map Seg.span) := by
  have e1 : p.segments = ((p.wings.map (·.2)).filterMap (p.heap[·]?)).flatMap Wing.segments := by
    rw [segments_eq, List.filterMap_map]; rfl
  have e2 : p'.segments = ((p.wings.map (·.2)).filterMap (p'.heap[·]?)).flatMap Wing.segments := by
    rw [segments_eq, List.filterMap_map, ← h.wings]; rfl
  rw [e1, e2]
  generalize p.wings.map (·.2) = ids
  induction ids with
  | nil => simp
  | cons id t ih =>
    rcases heap_get h id with ⟨h1, h2⟩ | ⟨w, w', h1, h2, hw⟩
    · rw [List.filterMap_cons_none h1, List.filterMap_cons_none h2]; exact ih
    · rw [List.filterMap_cons_some h1, List.filterMap_cons_some h2, List.flatMap_cons, List.flatMap_cons, List.map_append, List.map_append]
      refine List.Perm.append ?_ ih
      cases hw with
      | both _ _ g1 g2 =>
        simp only [Wing.segments, List.map_cons, List.map_nil, g1.span, g2.span]
        exact List.Perm.swap _ _ _
      | left _ g => simp [Wing.segments, g.span]
      | right _ g => simp [Wing.segments, g.span]

theorem PlaneMir.inferLat {p p' : Plane} (h : PlaneMir p p') : inferLat p'.segments = inferLat p.segments := by
  have e : ∀ segs : List Seg, Verif.inferLat segs = (segs.map Seg.span).foldl (fun m s => max m (2 * s)) 0 := by
    intro segs
    unfold Verif.inferLat
    rw [List.foldl_map]
    congr 1
    funext m s
    by_cases h : 2 * s.span > m
    · rw [if_pos h, max_eq_right h.le]
    · rw [if_neg h, max_eq_left (not_lt.1 h)]
  rw [e, e]
  have : RightCommutative (fun (m s : ℝ) => max m (2 * s)) := ⟨fun a b c => max_right_comm _ _ _⟩
  exact h.spans.foldl_eq _

theorem PlaneMir.refLengths {p p' : Plane} (h : PlaneMir p p') (h1 : p'.latRef = p.latRef) (h2 : p'.longRef = p.longRef) (S : ℝ) :
    refLengths p' S = refLengths p S := by
  unfold Verif.refLengths
  rw [h1, h2, h.inferLat]

end Verif
