import Verif.Thm.PropMirror

/-!
# Different ways to ask for the same operating state of a propeller (C121)
-/

namespace Verif
open V3 Act

/-- The operating states `s` and `s'` ask for the same thing, for a propeller of diameter `D` at the speed `V`: they are equal, or both
give the same advance ratio, by number, as the default 0.5, or through the rotation rate `V/(J D)`. -/
inductive SameDrive (V D : ℝ) : PropDict → PropDict → Prop
  | same (s) : SameDrive V D s s
  | symm {s s'} : SameDrive V D s s' → SameDrive V D s' s
  | trans {s s' s''} : SameDrive V D s s' → SameDrive V D s' s'' → SameDrive V D s s''
  | default {s} : Has s "J" 0.5 → SameDrive V D [] s
  | ratio {s s' J} : J ≠ 0 → Has s "J" J → Has s' "J" J → SameDrive V D s s'
  | rate {s s' J} : J ≠ 0 → Has s "J" J → Lacks s' "J" → Has s' "rot_per_sec" (V / (J * D)) → SameDrive V D s s'

theorem setPropDict_same {ι : Type} (M : PropM ι) {V : ℝ} (hV : V ≠ 0) (hD : M.d ≠ 0) {s s' : PropDict} (h : SameDrive V M.d s s') (st : PropSt) :
    setPropDict M V s st = setPropDict M V s' st := by
  induction h with
  | same => rfl
  | symm _ ih => exact ih.symm
  | trans _ _ i1 i2 => exact i1.trans i2
  | default h => rw [set_empty, set_J M V st h (by norm_num) hV]
  | ratio hJ h1 h2 => rw [set_J M V st h1 hJ hV, set_J M V st h2 hJ hV]
  | @rate s s' J hJ h1 h2 h3 =>
    rw [set_J M V st h1 hJ hV, set_rot M V st h2 h3]
    have e : V / (J * M.d) * M.d = V / J := by field_simp
    rw [e, if_neg (div_ne_zero hV hJ), show V / (V / J) = J by field_simp, mul_comm M.d J]

/-- C121 for one propeller: equal results, exceptions and remembered values -/
theorem C121_propeller {ι : Type} (M : PropM ι) (simps : List ℝ → List ℝ → ℝ) (fuel : ℕ) {aero : Option (AeroDict ι)} {fl : PFlow}
    (hf : propFlow aero = .ok fl) (hV : fl.V ≠ 0) (hD : M.d ≠ 0) {s s' : PropDict} (h : SameDrive fl.V M.d s s') (st : PropSt) :
    runProp simps fuel M aero s st = runProp simps fuel M aero s' st := by
  rw [runProp_eq M hf, runProp_eq M hf, bind_def, bind_def, setPropDict_same M hV hD h]

theorem propsLoop_same {ι : Type} (simps : List ℝ → List ℝ → ℝ) (fuel : ℕ) {aero : Option (AeroDict ι)} {ps ps' : PropDict} :
    ∀ (sls : List (PropSlot ι)) (acc : PropAcc),
    (∀ sl ∈ sls, (∃ e, localPS ps sl.name = .error e ∧ localPS ps' sl.name = .error e) ∨
      ∃ s s', localPS ps sl.name = .ok s ∧ localPS ps' sl.name = .ok s' ∧
        ∀ st, runProp simps fuel sl.model aero s st = runProp simps fuel sl.model aero s' st) →
    propsLoop simps fuel aero ps sls acc = propsLoop simps fuel aero ps' sls acc := by
  intro sls
  induction sls with
  | nil => intro acc _; rfl
  | cons sl t ih =>
    intro acc h
    unfold propsLoop
    rcases h sl (by simp) with ⟨e, h1, h2⟩ | ⟨s, s', h1, h2, h3⟩
    · rw [h1, h2]
    · rw [h1, h2]
      simp only [h3]
      generalize runProp simps fuel sl.model aero s' sl.st = A
      rcases A with ⟨e | r, st⟩
      · rfl
      · simp only [ih _ fun x hx => h x (by simp [hx])]

theorem propsForces_same {ι : Type} (simps : List ℝ → List ℝ → ℝ) (fuel : ℕ) {d : AeroDict ι} {V : ℝ} (hV : d.Vmag = some V) (hV0 : V ≠ 0)
    {ps ps' : PropDict} {sls : List (PropSlot ι)}
    (h : ∀ sl ∈ sls, sl.model.d ≠ 0 ∧ ∃ s s', localPS ps sl.name = .ok s ∧ localPS ps' sl.name = .ok s' ∧ SameDrive V sl.model.d s s') :
    propsForces simps fuel (some d) ps sls = propsForces simps fuel (some d) ps' sls := by
  have ht : d.truthy = true := by simp [AeroDict.truthy, hV]
  unfold propsForces
  rw [propsLoop_same]
  intro sl hsl
  obtain ⟨h1, s, s', h2, h3, h4⟩ := h sl hsl
  refine .inr ⟨s, s', h2, h3, fun st => ?_⟩
  rcases hf : propFlow (some d) with e | fl
  · unfold runProp
    rw [hf]
    rfl
  · have : fl.V = V := by
      unfold propFlow at hf
      simp only [if_pos ht, hV] at hf
      split at hf
      · cases hf
      · split at hf
        · cases hf
        · cases hf; rfl
    exact C121_propeller _ simps fuel hf (by rw [this]; exact hV0) h1 (by rw [this]; exact h4) st

theorem propsSolve_same {ι : Type} (simps : List ℝ → List ℝ → ℝ) (fuel : ℕ) {d : AeroDict ι} {V : ℝ} (hV : d.Vmag = some V) (hV0 : V ≠ 0)
    (pts : Option (ι → V3)) {ps ps' : PropDict} {sls : List (PropSlot ι)}
    (h : ∀ sl ∈ sls, sl.model.d ≠ 0 ∧ ∃ s s', localPS ps sl.name = .ok s ∧ localPS ps' sl.name = .ok s' ∧ SameDrive V sl.model.d s s') :
    propsSolve simps fuel pts (some d) ps sls = propsSolve simps fuel pts (some d) ps' sls := by
  unfold propsSolve
  rw [bind_def, bind_def, propsForces_same simps fuel hV hV0 h]

theorem muSolve_same {ι : Type} {B : Backend ι} {w : World B} {d : AeroDict ι} (hd : w.aero = some d) (ht : d.truthy = true) {ps ps' : Option B.π}
    (h : B.propSolve d ps w.st = B.propSolve d ps' w.st) : muSolve ps w = muSolve ps' w := by
  have hg : aeroGiven w = true := by simpa [aeroGiven, hd] using ht
  have e : onSolver (B.propSolve d ps) w = onSolver (B.propSolve d ps') w := by
    unfold onSolver; rw [h]
  have e1 : solveProps ps d w = solveProps ps' d w := by
    unfold solveProps
    by_cases hp : B.hasProps = true
    · rw [if_pos hp, if_pos hp, bind_def, bind_def, e]
    · rw [if_neg hp, if_neg hp]
  have e2 : solveParts ps w = solveParts ps' w := by
    have hga : getAero id w = (.ok d, w) := by unfold getAero; rw [hd]; rfl
    unfold solveParts
    rw [bind_def, bind_def, hga]
    simp only
    rw [bind_def, bind_def, e1]
  unfold muSolve
  rw [get_bind, get_bind, if_pos hg, if_pos hg, bind_def, bind_def, e2]

/-- **C121.** Take a `MachUp` object after any history, and a flow with a speed `V` that is not zero.  Two `prop_state`s that ask every
propeller for the same operating state — its advance ratio `J` by number, as the default, or as the rotation rate `V/(J D)` — give the
same result, or the same exception, and leave the object in the same state. -/
theorem C121_solve (o : Analyser) (p : Plane) (simps : List ℝ → List ℝ → ℝ) (fuel : ℕ) (bad : _) (w : World (o.backend p simps fuel bad))
    {d : AeroDict (Fin (sectionsOf o.wing))} {V : ℝ} (hd : w.aero = some d) (hV : d.Vmag = some V) (hV0 : V ≠ 0) (ps ps' : Option PropDict)
    (h : ∀ sl ∈ w.st.2, sl.model.d ≠ 0 ∧ ∃ s s', localPS (ps.getD []) sl.name = .ok s ∧ localPS (ps'.getD []) sl.name = .ok s' ∧
      SameDrive V sl.model.d s s') :
    muSolve ps w = muSolve ps' w := by
  refine muSolve_same hd (by simp [AeroDict.truthy, hV]) ?_
  generalize w.st = st at h
  obtain ⟨l, sls⟩ := st
  simp only [Analyser.backend, Analyser.backendOf] at h ⊢
  rw [propsSolve_same simps fuel hV hV0 _ (ps := ps.getD []) (ps' := ps'.getD [])]
  intro sl hsl
  obtain ⟨x, hx, rfl⟩ := List.mem_map.1 hsl
  exact h x hx

theorem rotor_slots {mem : String → ℕ → ℕ → Option ℝ} {o : Analyser} (h : openMachUp (fun _ _ => 0) mem rotor = .ok o) :
    ∃ M, o = ⟨none, some [⟨"prop", M, { mem := mem "prop" }, none⟩]⟩ ∧ M.d = 2 := by
  obtain ⟨M, hM, -, hd, -⟩ := demo_ok (ι := Fin (sectionsOf none)) (fun _ _ => 0) 0 none none
  refine ⟨M, ?_, hd⟩
  have hps : rotor.props = [("prop", demoProp)] := rotor_props
  unfold openMachUp mkWingPart at h
  rw [if_pos (show rotor.wings = [] from rfl)] at h
  simp only [pure, Except.pure, bind, Except.bind] at h
  rw [if_neg (by rw [hps]; simp)] at h
  unfold openProps at h
  rw [hps, show rotor.cg = 0 from rfl] at h
  have hM' : mkPropM (fun _ _ => 0) demoProp 0 none (pointsOf none) = .ok M := hM
  simp only [List.map_cons, List.map_nil, List.foldlM_cons, List.foldlM_nil, show rotor.getUnits = .ok none from rfl, bind, Except.bind, pure,
    Except.pure] at h
  rw [hM'] at h
  exact (Except.ok.inj h).symm

/-- C121: no `prop_state`, an advance ratio of 0.5 and the rotation rate 10 for a propeller of diameter 2 at the speed 10 -/
example : ∃ (mem : String → ℕ → ℕ → Option ℝ) (o : Analyser), openMachUp (fun _ _ => 0) mem rotor = .ok o ∧
    ∀ bad, ∃ T w', muSolve none (o.fresh rotor (fun _ _ => 1) 1 bad (some { Vmag := some 10, rho := some 1 }) none) = (.ok T, w') ∧
      muSolve (some [("J", .num 0.5)]) (o.fresh rotor (fun _ _ => 1) 1 bad (some { Vmag := some 10, rho := some 1 }) none) = (.ok T, w') ∧
      muSolve (some [("rot_per_sec", .num 10)]) (o.fresh rotor (fun _ _ => 1) 1 bad (some { Vmag := some 10, rho := some 1 }) none) = (.ok T, w') ∧
      T.MX ≠ 0 := by
  obtain ⟨mem, o, ho, h⟩ := rotor_solve
  refine ⟨mem, o, ho, fun bad => ?_⟩
  obtain ⟨T, w', h1, h2⟩ := h bad
  obtain ⟨M, rfl, hd⟩ := rotor_slots ho
  have l1 : localPS [("J", .num 0.5)] "prop" = .ok [("J", .num 0.5)] := by
    unfold localPS
    rw [if_neg (by simp)]
    simp [dictGet]
  have l2 : localPS [("rot_per_sec", .num 10)] "prop" = .ok [("rot_per_sec", .num 10)] := by
    unfold localPS
    rw [if_neg (by simp)]
    simp [dictGet]
  refine ⟨T, w', ?_, h1, ?_, h2⟩
  · rw [← h1]
    refine C121_solve _ rotor _ _ bad _ rfl rfl (by norm_num) none _ fun sl hsl => ?_
    obtain rfl : sl = ⟨"prop", M, { mem := mem "prop" }, none⟩ := List.mem_singleton.1 hsl
    exact ⟨by rw [hd]; norm_num, _, _, rfl, l1, .default (has_singleton _ _)⟩
  · rw [← h1]
    refine C121_solve _ rotor _ _ bad _ rfl rfl (by norm_num) _ _ fun sl hsl => ?_
    obtain rfl : sl = ⟨"prop", M, { mem := mem "prop" }, none⟩ := List.mem_singleton.1 hsl
    refine ⟨by rw [hd]; norm_num, _, _, l2, l1, .symm (.rate (J := 0.5) (by norm_num) (has_singleton _ _) (by simp [Lacks, dictGet]) ?_)⟩
    rw [hd]
    norm_num [Has, dictGet]

end Verif
