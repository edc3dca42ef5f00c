import Verif.Spec.PropPair
import Verif.Thm.PropOrder
import Verif.Thm.Symmetric
import Verif.Thm.PropPower

/-!
# Symmetric aircraft with pairs of propellers turning in opposite directions (C119)
-/

namespace Verif
open V3 Act

/-! ### The object and its mirror image -/

theorem mkPropM_twin {ι : Type} {table : String → ℝ → ℝ} {q q' : PropGeom} (h : q.TwinOf q') {cg : V3} (hcg : cg.y = 0) {u : Option String}
    {pts pts' : Option (ι → V3)} {M M' : PropM ι} (hM : mkPropM table q cg u pts = .ok M) (hM' : mkPropM table q' cg u pts' = .ok M') : MirM M M' := by
  have e0 : mir cg = cg := by ext <;> simp [hcg]
  obtain ⟨hr, n, r, rfl⟩ := h
  have h1 := mkPropM_mirror table q cg u pts pts'
  rw [e0, hM] at h1
  simp only [Except.map] at h1
  have h2 : mkPropM table { q.mirror with name := n, rotDir := r } cg u pts' =
      .ok { (M.mirror pts') with geom := { q.mirror with name := n, rotDir := r } } := by
    revert h1
    unfold mkPropM
    rw [show bladeAf { q.mirror with name := n, rotDir := r } = bladeAf q.mirror from rfl]
    simp only
    split
    · intro h; cases h
    · split
      · intro h; cases h
      · cases bladeAf q.mirror with
        | error e => intro h; cases h
        | ok af =>
          simp only [bind, Except.bind]
          rw [show zetaAt { q.mirror with name := n, rotDir := r } 0 = zetaAt q.mirror 0 from rfl,
            show bladePitch table { q.mirror with name := n, rotDir := r } = bladePitch table q.mirror from rfl,
            show bladeChord table { q.mirror with name := n, rotDir := r } = bladeChord table q.mirror from rfl]
          cases bladePitch table q.mirror (zetaAt q.mirror 0) (zetaAt q.mirror 0 * q.mirror.diameter * 0.5) (af 0).aL0 with
          | error e => intro h; cases h
          | ok _ =>
            simp only
            cases bladeChord table q.mirror (zetaAt q.mirror 0) with
            | error e => intro h; cases h
            | ok _ =>
              simp only
              cases calcMotor q.mirror.motor with
              | error e => intro h; cases h
              | ok m =>
                simp only
                simp only [show ∀ i, stnAt table { q.mirror with name := n, rotDir := r } (af i) i = stnAt table q.mirror (af i) i from fun i => rfl]
                split
                · intro h
                  simp only [pure, Except.pure, Except.ok.injEq, PropM.mirror, PropM.mk.injEq] at h ⊢
                  exact ⟨trivial, h.2⟩
                · intro h; cases h
  rw [h2] at hM'
  cases hM'
  have hg : M.geom = q := (mkPropM_ok hM).2.2.1
  have k := mirM_mirror M pts'
  have e1 : M.geom.mirror = q.mirror := by rw [hg]
  exact { nodes := by rw [← k.nodes]; simp only [PropM.nodes, PropM.mirror, e1]
          d := by rw [← k.d]; simp only [PropM.d, PropM.mirror, e1]
          blades := by rw [← k.blades]; simp only [PropM.blades, PropM.mirror, e1]
          stn := k.stn
          motor := k.motor
          units := k.units
          pos := by rw [← k.pos]; simp only [PropM.mirror, e1]
          fwd := by rw [← k.fwd]; simp only [PropM.fwd, PropM.mirror, e1]; rfl
          rot := by show PropGeom.rot _ = _; rw [hr]; simp only [PropM.rot, hg]
          cg := k.cg }

theorem paired_perm {p : Plane} (hn : PropsNamed p) {twin : String → String} (h : PairedProps p twin) :
    (p.props.map fun kv => (twin kv.1, (dictGet p.props (twin kv.1)).getD kv.2)).Perm p.props := by
  have key : ∀ kv ∈ p.props, ∃ q', (twin kv.1, q') ∈ p.props ∧ dictGet p.props (twin kv.1) = some q' ∧ kv.2.TwinOf q' := by
    rintro ⟨k, q⟩ hk
    obtain ⟨q', h1, h2⟩ := h.pairs k q hk
    exact ⟨q', h1, (mem_iff_dictGet hn.2 _ _).1 h1, h2⟩
  have hinj : Function.Injective twin := Function.LeftInverse.injective h.back
  refine (List.perm_ext_iff_of_nodup (.of_map Prod.fst ?_) (.of_map _ hn.2)).2 fun x => ?_
  · rw [List.map_map]
    have := hn.2.map hinj
    rw [List.map_map] at this
    exact this
  · simp only [List.mem_map]
    constructor
    · rintro ⟨kv, hkv, rfl⟩
      obtain ⟨q', h1, h2, -⟩ := key kv hkv
      rw [h2]
      exact h1
    · intro hx
      obtain ⟨q', h1, -⟩ := key x hx
      refine ⟨(twin x.1, q'), h1, ?_⟩
      simp only [h.back]
      rw [(mem_iff_dictGet hn.2 x.1 x.2).1 hx]
      rfl

/-- the propellers of a new object, taken in another order, are the mirror images of the propellers -/
theorem paired_slots {ι : Type} {table : String → ℝ → ℝ} {mem : String → ℕ → ℕ → Option ℝ} {p : Plane} (hn : PropsNamed p) {twin : String → String}
    (h : PairedProps p twin) (hcg : p.cg.y = 0) (hmem : ∀ k, mem (twin k) = mem k) {pts : Option (ι → V3)} {s : List (PropSlot ι)}
    (hs : openProps table mem p pts = .ok s) : ∃ s', s.Perm s' ∧ List.Forall₂ (SlotMir fun a b => b = twin a) s s' := by
  have h1 := (openProps_iff hn).1 hs
  obtain ⟨s', h2, h3⟩ := List.perm_comp_forall₂ (paired_perm hn h) h1
  refine ⟨s', h3.symm, ?_⟩
  rw [List.forall₂_map_left_iff] at h2
  have hall : ∀ kv ∈ p.props, kv.2.TwinOf ((dictGet p.props (twin kv.1)).getD kv.2) := by
    rintro ⟨k, q⟩ hk
    obtain ⟨q', g1, g2⟩ := h.pairs k q hk
    simp only
    rw [(mem_iff_dictGet hn.2 _ _).1 g1]
    exact g2
  have gen : ∀ (f : String × PropGeom → PropGeom) (l : List (String × PropGeom)) (s s' : List (PropSlot ι)),
      (∀ kv ∈ l, kv.2.TwinOf (f kv)) → List.Forall₂ (SlotOf table mem p.cg p.getUnits pts) l s →
      List.Forall₂ (fun kv sl => SlotOf table mem p.cg p.getUnits pts (twin kv.1, f kv) sl) l s' →
      List.Forall₂ (SlotMir fun a b => b = twin a) s s' := by
    intro f l
    induction l with
    | nil => intro s s' _ h1 h2; cases h1; cases h2; exact .nil
    | cons kv t ih =>
      intro s s' hf h1 h2
      cases h1 with
      | cons a1 a2 =>
        cases h2 with
        | cons b1 b2 =>
          refine .cons ?_ (ih _ _ (fun kv hkv => hf kv (by simp [hkv])) a2 b2)
          obtain ⟨u, M, hu, hM, rfl⟩ := a1
          obtain ⟨u', M', hu', hM', rfl⟩ := b1
          rw [hu] at hu'
          cases hu'
          exact ⟨rfl, mkPropM_twin (hf kv (by simp)) hcg hM hM', by simp only [hmem]⟩
  exact gen _ _ _ _ hall h1 h2

/-- symmetric flow is its own mirror image -/
theorem symFlow_mirror {ι : Type*} {d : AeroDict ι} (h : SymFlow d) (σ : ι ≃ ι) : d.mirror.reindex σ = d := by
  have e : ∀ x : Option ℝ, x.getD 0 = 0 → x.map (- ·) = x := by
    intro x hx
    cases x with
    | none => rfl
    | some x => simp only [Option.getD_some] at hx; subst hx; simp
  obtain ⟨h1, h2, h3, h4⟩ := h
  unfold AeroDict.mirror AeroDict.reindex
  simp only [h4, Option.map_none]
  rw [e _ h1, e _ h2, e _ h3, ← h4]

theorem symCtrl_mirror {c : Option CtrlDict} (h : SymCtrl c) : c.map CtrlDict.mirror = c := by
  have e : ∀ x : Option ℝ, x.getD 0 = 0 → x.map (- ·) = x := by
    intro x hx
    cases x with
    | none => rfl
    | some x => simp only [Option.getD_some] at hx; subst hx; simp
  cases c with
  | none => rfl
  | some c =>
    obtain ⟨h1, h2⟩ := h c rfl
    simp only [Option.map_some, CtrlDict.mirror, Option.some.injEq]
    rw [e _ h1, e _ h2]

theorem planar_of_mirror {T : Loads} (h : T = T.mirror) : T.Planar := by
  have e : ∀ x : ℝ, x = -x → x = 0 := fun x h => by linarith
  exact ⟨e _ (congrArg Loads.FY h), e _ (congrArg Loads.FS h), e _ (congrArg Loads.MX h), e _ (congrArg Loads.MZ h)⟩

/-- the wing part of a symmetric aircraft is its own mirror image -/
theorem objMir_self {table : String → ℝ → ℝ} {mem : String → ℕ → ℕ → Option ℝ} {nm : String} {pos : Option V3} {ops : List PlaneOp} (hpos : (pos.getD 0).y = 0)
    (hs : SymmetricCalls ops) {units : Option (Option String)} {p : Plane} (hp : p = { built nm pos ops with units }) (hcg : p.cg.y = 0)
    {o : Analyser} (ho : openMachUp table mem p = .ok o) (sl' : Option (List (PropSlot (Fin (sectionsOf o.wing))))) (hsl : sl'.isSome = o.slots.isSome) :
    ∃ σ : Fin (sectionsOf o.wing) ≃ Fin (sectionsOf o.wing), ObjMir o ⟨o.wing, sl'⟩ p p σ := by
  have e0 : p.cg = mir p.cg := by ext <;> simp [hcg]
  obtain ⟨hw, -⟩ := slots_cases ho
  obtain ⟨w, sl⟩ := o
  rcases w with _ | W
  · exact ⟨Equiv.refl _, rfl, rfl, e0, rfl, hsl, rfl, fun d c st st' hd hi => by simp at hi⟩
  · have hg := wing_grid hw
    have e : mkGrid p true = mkGrid (built nm pos ops) true :=
      mkGrid_congr (by rw [hp]) (by rw [hp]) (by rw [hp]) true
    rw [e] at hg
    obtain ⟨σ, hσ⟩ := (grid_selfMirror (built_inv nm pos ops) (symmetricPlane_of hpos hs) hg).perm
    have h1 : ∀ i, (W.grid.data.get (σ i)).rcp = mir (W.grid.data.get i).rcp := fun i => by simpa using (hσ i).image.rcp
    refine ⟨σ, rfl, rfl, e0, rfl, hsl, ?_, fun d c st st' hd _ hC => ?_⟩
    · simp only [pointsOf, Option.map_some, Option.some.injEq]
      funext i'
      have := h1 (σ.symm i')
      have e2 : σ (σ.symm i') = i' := σ.apply_symm_apply i'
      exact (congrArg (fun i => (W.grid.data.get i).rcp) e2).symm.trans this
    · obtain ⟨k1, k2⟩ := llSolve_mirrored σ hσ e0 d c hd hC
      exact ⟨k1.mono fun _ _ _ _ k => ⟨k.2.2.1, k.2.2.2.1⟩, k2⟩

/-- **C119** (partial: for propellers that find the same contents in the memory they do not initialise).
Take an aircraft built through the API from two-sided, laterally centred wings, with its position and CG on the x-z plane, whose
propellers come in pairs of mirror images turning in opposite directions.  A new `MachUp` object is used for a sequence of
`solve` calls, with symmetric flow, symmetric controls and the same propeller state for both propellers of each pair.  If
the calls succeed, no result has a side force, a rolling moment or a yawing moment. -/
theorem C119_no_lateral_partial (table : String → ℝ → ℝ) (mem : String → ℕ → ℕ → Option ℝ) (simps : List ℝ → List ℝ → ℝ) (fuel : ℕ)
    (nm : String) (pos : Option V3) (ops : List PlaneOp) (hpos : (pos.getD 0).y = 0) (hs : SymmetricCalls ops) (units : Option (Option String))
    (p : Plane) (hp : p = { built nm pos ops with units }) (hcg : p.cg.y = 0) (twin : String → String) (hpair : PairedProps p twin)
    (hmem : ∀ k, mem (twin k) = mem k) (o : Analyser) (ho : openMachUp table mem p = .ok o) (bad : _)
    (calls : List (AeroDict (Fin (sectionsOf o.wing)) × Option CtrlDict × Option PropDict))
    (hcalls : ∀ k ∈ calls, k.1.truthy = true ∧ SymFlow k.1 ∧ SymCtrl k.2.1 ∧
      ∀ ps, k.2.2 = some ps → ∀ name, dictGet ps (twin name) = dictGet ps name)
    (Ts : List Loads) (hT : solveSeq (o.fresh p simps fuel bad none none) (calls.map fun k => ⟨some k.1, k.2.1, k.2.2⟩) = Ts.map .ok) :
    ∀ T ∈ Ts, T.Planar := by
  have hn : PropsNamed p := by rw [hp]; exact propsNamed_built nm pos ops
  -- the same object with the propellers of each pair exchanged
  have hsl : ∃ sl' : Option (List (PropSlot (Fin (sectionsOf o.wing)))), sl'.isSome = o.slots.isSome ∧ (o.slots.getD []).Perm (sl'.getD []) ∧
      List.Forall₂ (SlotMir fun a b => b = twin a) (o.slots.getD []) (sl'.getD []) := by
    rcases (slots_cases ho).2 with ⟨-, e⟩ | ⟨-, s, e, hs⟩ <;> rw [e]
    · exact ⟨none, rfl, .refl _, .nil⟩
    · obtain ⟨s', k1, k2⟩ := paired_slots hn hpair hcg hmem hs
      exact ⟨some s', rfl, k1, k2⟩
  obtain ⟨sl', e1, e2, e3⟩ := hsl
  obtain ⟨σ, hO⟩ := objMir_self hpos hs hp hcg ho sl' e1
  have F := fun ps => follows_order e1 (rfl : p.wings = p.wings) rfl (.refl _) simps fuel bad bad ps
  have key : ∀ (calls : List (AeroDict (Fin (sectionsOf o.wing)) × Option CtrlDict × Option PropDict)) (w : World (o.backend p simps fuel bad))
      (w' : World (Analyser.backend ⟨o.wing, sl'⟩ p simps fuel bad)), (∀ k ∈ calls, k.1.truthy = true ∧ SymFlow k.1 ∧ SymCtrl k.2.1 ∧
        ∀ ps, k.2.2 = some ps → ∀ name, dictGet ps (twin name) = dictGet ps name) →
      StMir σ (fun a b => b = twin a) w.st w'.st → (w'.st.1 = w.st.1 ∧ w.st.2.Perm w'.st.2) →
      ∀ Ts : List Loads, solveSeq w (calls.map fun k => ⟨some k.1, k.2.1, k.2.2⟩) = Ts.map .ok → ∀ T ∈ Ts, T.Planar := by
    intro calls
    induction calls with
    | nil =>
      intro w w' _ _ _ Ts h
      cases Ts with
      | nil => simp
      | cons => cases h
    | cons k t ih =>
      intro w w' hc hst hperm Ts h
      obtain ⟨c1, c2, c3, c4⟩ := hc k (by simp)
      cases Ts with
      | nil => cases h
      | cons T Ts =>
        simp only [List.map_cons, solveSeq, List.cons.injEq] at h
        obtain ⟨h1, h2⟩ := h
        have hm := hO.muSolve (w := { w with aero := some k.1, ctrl := k.2.1 })
          (w' := { w' with aero := some k.1, ctrl := k.2.1 }) c1 rfl rfl (by rw [symFlow_mirror c2]) (by rw [symCtrl_mirror c3]) k.2.2 (by
            rintro a b rfl
            unfold localPS
            rcases hps : k.2.2 with _ | ps
            · simp
            · simp only [Option.getD_some]
              rw [c4 ps hps]) hst
        rcases hrun : muSolve k.2.2 { w with aero := some k.1, ctrl := k.2.1 } with ⟨r, w1⟩
        have hr : r = .ok T := by rw [← h1]; exact (congrArg Prod.fst hrun).symm
        subst hr
        obtain ⟨T', w1', k1, k2, k3⟩ := (F k.2.2).muSolve { w with aero := some k.1, ctrl := k.2.1 }
          { w' with aero := some k.1, ctrl := k.2.1 } ⟨rfl, rfl, hperm⟩ T w1 hrun
        subst k2
        rw [hrun, k1] at hm
        obtain ⟨m1, m2⟩ := hm
        intro T1 hT1
        rcases List.mem_cons.1 hT1 with rfl | hT1
        · exact planar_of_mirror m1
        · refine ih w1 w1' (fun k hk => hc k (by simp [hk])) ?_ k3.st Ts ?_ T1 hT1
          · exact m2
          · rw [hrun] at h2
            exact h2
  exact key calls (o.fresh p simps fuel bad none none) (Analyser.fresh ⟨o.wing, sl'⟩ p simps fuel bad none none) hcalls ⟨⟨fun _ => rfl, fun _ => rfl⟩, e3⟩ ⟨rfl, e2⟩ Ts hT

/-! ### The pair of example propellers -/

/-- the propellers "prop" and "twin" exchanged -/
def swapNames (k : String) : String := if k = "prop" then "twin" else if k = "twin" then "prop" else k

theorem pair_paired : PairedProps pair swapNames := by
  have hps : pair.props = [("prop", demoProp), ("twin", twinProp)] := pair_props
  constructor
  · intro k
    unfold swapNames
    by_cases h1 : k = "prop"
    · simp [h1]
    · by_cases h2 : k = "twin" <;> simp [h1, h2]
  · intro k q h
    rw [hps] at h ⊢
    simp only [List.mem_cons, Prod.mk.injEq, List.not_mem_nil, or_false] at h
    rcases h with ⟨rfl, rfl⟩ | ⟨rfl, rfl⟩
    · refine ⟨twinProp, by simp [swapNames], ?_, "twin", twinProp.rotDir, rfl⟩
      simp [twinProp, PropGeom.mirror, demoProp, PropGeom.rot, RotArg.opposite]
    · refine ⟨demoProp, by simp [swapNames], ?_, "prop", demoProp.rotDir, ?_⟩
      · simp [twinProp, PropGeom.mirror, demoProp, PropGeom.rot, RotArg.opposite]
      · simp [twinProp, PropGeom.mirror, demoProp, mir]

/-- C119: the theorem applies to the aircraft with the two example propellers -/
example : ∃ (mem : String → ℕ → ℕ → Option ℝ) (o : Analyser), openMachUp (fun _ _ => 0) mem pair = .ok o ∧ pair.cg.y = 0 ∧
    SymmetricCalls pairOps ∧ (∀ k, mem (swapNames k) = mem k) ∧ (∀ k, dictGet [("J", PSVal.num 0.5)] (swapNames k) = dictGet [("J", PSVal.num 0.5)] k) ∧
    SymFlow ({ Vmag := some 10, rho := some 1 } : AeroDict (Fin (sectionsOf o.wing))) ∧
    ∀ bad, ∃ T, solveSeq (o.fresh pair (fun _ _ => 1) 1 bad none none)
      [⟨some { Vmag := some 10, rho := some 1 }, none, some [("J", .num 0.5)]⟩] = [T].map .ok := by
  obtain ⟨M, hM, -, hd, -⟩ := demo_ok (ι := Fin (sectionsOf none)) (fun _ _ => 0) 0 none none
  obtain ⟨mem, hr⟩ := demo_run hM 10 1 (J := 0.5) (by norm_num) (by norm_num) (fun _ => 1) _ 0 [("J", .num 0.5)]
    (fun s => set_J M 10 s (has_singleton _ _) (by norm_num) (by norm_num)) 15
  obtain ⟨o, s1, r1, -⟩ := hr (fun _ _ => 1) 0
  obtain ⟨a, h1, h2⟩ := pair_run (fun _ _ => 1) hM r1 r1
  refine ⟨_, a, h1, rfl, symmetricCalls_of ?_, fun k => by simp, fun k => ?_, ⟨rfl, rfl, rfl, rfl⟩, fun bad => ?_⟩
  · intro name parent location side d h
    simp [pairOps, rotorOps] at h
  · have e : ∀ k, k ≠ "J" → dictGet [("J", PSVal.num 0.5)] k = none := fun k hk => by simp [dictGet, Ne.symm hk]
    unfold swapNames
    by_cases c1 : k = "prop"
    · simp [c1, dictGet]
    · by_cases c2 : k = "twin"
      · simp [c2, dictGet]
      · simp [c1, c2]
  · obtain ⟨T, w', h, -⟩ := h2 bad
    refine ⟨T, ?_⟩
    simp only [solveSeq, List.map_cons, List.map_nil, List.cons.injEq, and_true]
    exact congrArg Prod.fst h

private theorem lift_torque {z e i c s : ℝ} (hz : 0 < z) (he : 0 < e) (hi : 0 < i) (hc : 0 < c) (hs : 0 < s) :
    z * z * z * (0.1517 * z) * (e * e / (i * i)) * ((0.01 + 0.01 * 0 * 0) * c + 0 * s) <
      z * z * z * (0.1517 * z) * (e * e / (i * i)) * ((0.01 + 0.01 * 1 * 1) * c + 1 * s) := by
  refine mul_lt_mul_of_pos_left ?_ (by positivity)
  norm_num
  linarith

private theorem torque_diff {n a A B : ℝ} (hn : 0 < n) (ha : 0 < a) (h : B < A) :
    -(32 * n) * (a / 8 * (0.499 * A / 2)) - -(32 * n) * (a / 8 * (0.499 * B / 2)) < 0 := by
  have : -(32 * n) * (a / 8 * (0.499 * A / 2)) - -(32 * n) * (a / 8 * (0.499 * B / 2)) = -(n * a * 0.998) * (A - B) := by ring
  rw [this]
  have := mul_pos (mul_pos (mul_pos hn ha) (show (0 : ℝ) < 0.998 by norm_num)) (sub_pos.2 h)
  linarith

/-- **C119 fails** without the restriction on memory contents: the two propellers are analysed with arrays that NumPy does not initialise
(C108), and there are contents of these with which the first `solve` for the aircraft, in axial flow, gives a rolling moment. -/
theorem C119_refuted (simps : List ℝ → List ℝ → ℝ) (ht : TwoPoints simps) : ∃ (mem : String → ℕ → ℕ → Option ℝ) (o : Analyser),
    openMachUp (fun _ _ => 0) mem pair = .ok o ∧ PairedProps pair swapNames ∧ pair.cg = 0 ∧
    ∀ bad, ∃ T w', muSolve (some [("J", .num 0.5)]) (o.fresh pair simps 1 bad (some { Vmag := some 10, rho := some 1 }) none) = (.ok T, w') ∧
      T.MX < 0 := by
  obtain ⟨M, hM, hnod, hd, hst, z0, z1⟩ := demo_ok (ι := Fin (sectionsOf none)) (fun _ _ => 0) 0 none none
  have hg : M.geom = demoProp := (mkPropM_ok hM).2.2.1
  have hMcg : M.cg = 0 := (mkPropM_ok hM).2.2.2.1
  have run := fun g => demo_run hM 10 1 (J := 0.5) (by norm_num) (by norm_num) g _ 0 [("J", .num 0.5)]
    (fun s => set_J M 10 s (has_singleton _ _) (by norm_num) (by norm_num)) 15
  obtain ⟨mem1, hr1⟩ := run fun _ => 1
  obtain ⟨mem2, hr2⟩ := run fun _ => 0
  obtain ⟨o1, s1, r1, n1, g1, -⟩ := hr1 simps 0
  obtain ⟨o2, s2, r2, n2, g2, -⟩ := hr2 simps 0
  obtain ⟨a, h1, h2⟩ := pair_run simps hM r1 r2
  refine ⟨_, a, h1, pair_paired, rfl, fun bad => ?_⟩
  obtain ⟨T, w', h3, h4⟩ := h2 bad
  refine ⟨T, w', h3, ?_⟩
  have moment : ∀ {mem : ℕ → ℕ → Option ℝ} {o : PropOut} {s : PropSt}, runProp simps 1 M (some { Vmag := some 10, rho := some 1 }) [("J", .num 0.5)] { mem } = (.ok o, s) →
      o.M.x = -(32 * (o.n * o.n)) * (Real.pi * Real.pi / 8 * overBlade M simps (fun i => (M.stn i).zeta * (M.stn i).zeta * (M.stn i).zeta * (M.stn i).chatb *
      (Real.cos (o.c.ei i) * Real.cos (o.c.ei i) / (Real.cos (o.c.einf i) * Real.cos (o.c.einf i))) *
      (o.c.CD i * Real.cos (o.c.einf i + o.c.ei i) + o.c.CL i * Real.sin (o.c.einf i + o.c.ei i)))) := by
    intro mem o s r
    rw [runProp_eq M (demo_flow 10 1), bind_of_ok (set_J M 10 _ (has_singleton _ _) (by norm_num) (by norm_num))] at r
    obtain ⟨c, c1, c2⟩ := calcForces_ok r
    have c3 : findCoefs M simps 1 0.5 _ = (.ok c, s) := c1
    have k1 := demo_moment hg hMcg c2
    have k2 := (findCoefs_integrals c3).2.1
    have k3 := (forcesOf_out c2).1
    have k4 : o.c = c := by
      unfold forcesOf at c2
      simp only [demo_angle hg, if_true, bind, Except.bind, pure, Except.pure, Except.ok.injEq] at c2
      rw [← c2]
    rw [k1, k4, ← k2, ← k3]
    ring
  -- the drag of one propeller alone, and the lift of the other
  have two : ∀ y : ℕ → ℝ, overBlade M simps y = 0.499 * (y 0 + y 1) / 2 := fun y => by
    unfold overBlade
    rw [hnod]
    have := ht (M.stn 0).zeta (M.stn 1).zeta (y 0) (y 1)
    rw [z0, z1] at this
    simp only [List.range_succ, List.range_zero, List.map_append, List.map_cons, List.map_nil, List.nil_append, List.cons_append, z0, z1]
    rw [this]
    norm_num
  have m1 := moment r1
  have m2 := moment r2
  rw [two] at m1 m2
  have hi : ∀ i, i < 2 → (M.stn i).zeta * (M.stn i).zeta * (M.stn i).zeta * (M.stn i).chatb *
      (Real.cos (o2.c.ei i) * Real.cos (o2.c.ei i) / (Real.cos (o2.c.einf i) * Real.cos (o2.c.einf i))) *
      (o2.c.CD i * Real.cos (o2.c.einf i + o2.c.ei i) + o2.c.CL i * Real.sin (o2.c.einf i + o2.c.ei i)) <
      (M.stn i).zeta * (M.stn i).zeta * (M.stn i).zeta * (M.stn i).chatb *
      (Real.cos (o1.c.ei i) * Real.cos (o1.c.ei i) / (Real.cos (o1.c.einf i) * Real.cos (o1.c.einf i))) *
      (o1.c.CD i * Real.cos (o1.c.einf i + o1.c.ei i) + o1.c.CL i * Real.sin (o1.c.einf i + o1.c.ei i)) := by
    intro i hi
    obtain ⟨a1, a2, a3, a4, a5⟩ := g1 i hi
    obtain ⟨b1, b2, b3, b4, b5⟩ := g2 i hi
    obtain ⟨y1, y2, -, y4, -, -, -, y8, y9, y10, -⟩ := hst i hi
    have hp : 0 < Real.pi * (M.stn i).zeta := mul_pos Real.pi_pos y1
    have hx : 0 < 1 / (Real.pi * (M.stn i).zeta) := by positivity
    rw [a5, b5, a1, b1, a4, b4, a3, b3, y9, y8, y4]
    unfold einfAt
    rw [arctan2_pos _ hp]
    set x := 1 / (Real.pi * (M.stn i).zeta)
    have hphi : ∀ y, y + (Real.arctan x - y) = Real.arctan x := fun y => by ring
    rw [hphi]
    have hc := Real.cos_arctan_pos x
    have hs : 0 < Real.sin (Real.arctan x) := by
      have := Real.tan_arctan x
      rw [Real.tan_eq_sin_div_cos, div_eq_iff hc.ne'] at this
      rw [this]; positivity
    have hce : 0 < Real.cos (Real.arctan x - Real.arctan (0.5 / (Real.pi * (M.stn i).zeta))) := by
      have e1 := Real.arctan_lt_pi_div_two x
      have e2 : 0 < Real.arctan (0.5 / (Real.pi * (M.stn i).zeta)) := Real.arctan_pos.2 (by positivity)
      have e3 := Real.arctan_lt_pi_div_two (0.5 / (Real.pi * (M.stn i).zeta))
      have e4 : 0 < Real.arctan x := Real.arctan_pos.2 hx
      exact Real.cos_pos_of_mem_Ioo ⟨by linarith, by linarith⟩
    have hci := Real.cos_arctan_pos (0.5 / (Real.pi * (M.stn i).zeta))
    exact lift_torque y1 hce hci hc hs
  have k0 := hi 0 (by norm_num)
  have k1 := hi 1 (by norm_num)
  rw [h4, m1, m2, n1, n2, hd]
  exact torque_diff (by norm_num) (mul_pos Real.pi_pos Real.pi_pos) (add_lt_add k0 k1)

end Verif
