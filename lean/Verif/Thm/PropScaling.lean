import Verif.Examples.Prop
import Verif.Thm.PropState
import Verif.Spec.PlaneImage

/-!
# Similarity law of propellers (C64)
-/

namespace Verif
open V3 Act

variable {ι : Type} {simps : List ℝ → List ℝ → ℝ} {fuel : ℕ}

/-- the arrays of the larger propeller -/
def Stn.scale (k : ℝ) (s : Stn) : Stn := { s with r := k * s.r, cb := k * s.cb }

/-- the larger propeller on the larger plane -/
noncomputable def PropM.scale (k : ℝ) (M : PropM ι) : PropM ι :=
  { M with geom := M.geom.scale k, stn := fun i => (M.stn i).scale k, cg := k • M.cg, pts := M.pts.map fun p i => k • p i }

theorem zetaAt_scale {k : ℝ} (hk : k ≠ 0) (q : PropGeom) (i : ℕ) : zetaAt (q.scale k) i = zetaAt q i := by
  unfold zetaAt PropGeom.scale
  simp only
  rw [mul_div_mul_left _ _ hk]

theorem bladeAf_scale {k : ℝ} (hk : k ≠ 0) (q : PropGeom) : bladeAf (q.scale k) = bladeAf q := by
  have hz : zetaAt (q.scale k) = zetaAt q := funext (zetaAt_scale hk q)
  have h1 : (q.scale k).airfoils = q.airfoils := rfl
  have h2 : (q.scale k).nodes = q.nodes := rfl
  unfold bladeAf
  rw [hz, h1, h2]

theorem filePitch_scale {k : ℝ} (hk : k ≠ 0) (r dg aL0 : ℝ) : filePitch (k * r) dg aL0 = filePitch r dg aL0 := by
  unfold filePitch
  simp only
  have e1 : 2 * Real.pi * (k * r) = k * (2 * Real.pi * r) := by ring
  set c := 2 * Real.pi * r with hc
  set T := Real.tan (rad dg)
  set A := Real.tan aL0
  rw [e1]
  have e2 : k * c + k * c * T * A = k * (c + c * T * A) := by ring
  have e3 : k * c * (k * c * T - k * c * A) = k * (k * (c * (c * T - c * A))) := by ring
  have e4 : k * (k * (c * (c * T - c * A))) / (k * (c + c * T * A)) / (k * c) = c * (c * T - c * A) / (c + c * T * A) / c := by
    rw [mul_div_mul_left _ _ hk, mul_div_assoc, mul_div_mul_left _ _ hk]
  rw [e2, e3, e4]
  simp only [mul_eq_zero, hk, false_or]

theorem bladePitch_scale {k : ℝ} (hk : k ≠ 0) (table : String → ℝ → ℝ) (q : PropGeom) (hd : q.diameter ≠ 0) (zeta r aL0 : ℝ) :
    bladePitch table (q.scale k) zeta (k * r) aL0 = bladePitch table q zeta r aL0 := by
  unfold bladePitch
  have h1 : (q.scale k).pitch.type = q.pitch.type := rfl
  have h2 : (q.scale k).pitch.increment = q.pitch.increment := rfl
  have h3 : (q.scale k).pitch.filename = q.pitch.filename := rfl
  have h4 : (q.scale k).diameter = k * q.diameter := rfl
  have h5 : (q.scale k).pitch.value = if q.pitch.type = some "value" then q.pitch.value.map (k * ·) else q.pitch.value := rfl
  rw [h1, h2, h3, h4, h5]
  split
  · rfl
  · rfl
  · simp only [filePitch_scale hk]
  · rename_i ht
    rw [if_neg (by rw [ht]; decide)]
  · rename_i ht
    rw [if_pos ht]
    rcases q.pitch.value with _ | v
    · rfl
    · simp only [Option.map_some, getKey, bind, Except.bind, mul_div_mul_left _ _ hk]
  · rfl

theorem bladeChord_scale {k : ℝ} (hk : k ≠ 0) (table : String → ℝ → ℝ) (q : PropGeom) (zeta : ℝ) :
    bladeChord table (q.scale k) zeta = (bladeChord table q zeta).map (·.map (k * ·)) := by
  have hz : zetaAt (q.scale k) = zetaAt q := funext (zetaAt_scale hk q)
  have h1 : (q.scale k).chord.type = q.chord.type := rfl
  have h3 : (q.scale k).chord.filename = q.chord.filename := rfl
  have h4 : (q.scale k).diameter = k * q.diameter := rfl
  have h5 : (q.scale k).chord.root = q.chord.root.map (k * ·) := rfl
  have h6 : (q.scale k).chord.tip = q.chord.tip.map (k * ·) := rfl
  have h7 : (q.scale k).nodes = q.nodes := rfl
  unfold bladeChord
  rw [h1, h3, h4, h5, h6]
  split
  · rfl
  · rcases ellipse zeta with _ | e
    · rfl
    · simp only [Option.map_some, Except.map, Except.ok.injEq, Option.some.injEq]; ring
  · rcases q.chord.filename with _ | f
    · rfl
    · simp only [getKey, bind, Except.bind, pure, Except.pure, Except.map, Option.map_some, Except.ok.injEq, Option.some.injEq]
      ring
  · rcases q.chord.root with _ | r
    · rfl
    · have : (Option.map (k * ·) q.chord.tip).getD (k * r) = k * q.chord.tip.getD r := by
        rcases q.chord.tip with _ | t <;> rfl
      simp only [Option.map_some, getKey, bind, Except.bind, pure, Except.pure, Except.map, this]
      unfold linearInterp
      rw [hz, h7]
      simp only
      split_ifs
      · rfl
      · simp only [Option.map_some, Except.ok.injEq, Option.some.injEq]; ring
  · rcases q.chord.root with _ | r
    · rfl
    · simp only [Option.map_some, getKey, bind, Except.bind, pure, Except.pure, Except.map]
      rcases ellipse zeta with _ | e
      · rfl
      · simp only [Option.map_some, Except.ok.injEq, Option.some.injEq]; ring
  · rfl

theorem mkStn_scale {k : ℝ} (hk : k ≠ 0) (q : PropGeom) (zeta r : ℝ) (af : BladeAf) (beta cb : ℝ) :
    mkStn (q.scale k) zeta (k * r) af beta (k * cb) = (mkStn q zeta r af beta cb).map (Stn.scale k) := by
  have h4 : (q.scale k).diameter = k * q.diameter := rfl
  have h5 : (q.scale k).blades = q.blades := rfl
  have hb : (q.blades : ℝ) * (k * cb) / (k * q.diameter) = q.blades * cb / q.diameter := by
    rw [mul_left_comm, mul_div_mul_left _ _ hk]
  unfold mkStn
  rw [h4, h5]
  simp only [mul_div_mul_left _ _ hk, hb, ne_eq, mul_eq_zero, hk, false_or]
  split_ifs <;> rfl

theorem radius_scale {k : ℝ} (hk : k ≠ 0) (q : PropGeom) (i : ℕ) :
    zetaAt (q.scale k) i * (q.scale k).diameter * 0.5 = k * (zetaAt q i * q.diameter * 0.5) := by
  rw [zetaAt_scale hk, show (q.scale k).diameter = k * q.diameter from rfl]
  ring

theorem stnAt_scale {k : ℝ} (hk : k ≠ 0) (table : String → ℝ → ℝ) (q : PropGeom) (hd : q.diameter ≠ 0) (af : BladeAf) (i : ℕ) :
    stnAt table (q.scale k) af i = (stnAt table q af i).map (Stn.scale k) := by
  unfold stnAt
  rw [radius_scale hk, zetaAt_scale hk, bladePitch_scale hk _ _ hd, bladeChord_scale hk]
  rcases bladePitch table q (zetaAt q i) (zetaAt q i * q.diameter * 0.5) af.aL0 with e | (_ | b)
  · rfl
  · rfl
  rcases bladeChord table q (zetaAt q i) with e | (_ | c)
  · rfl
  · rfl
  exact mkStn_scale hk _ _ _ _ _ _

/-- the constructor of the larger propeller gives the larger model -/
theorem mkPropM_scale {k : ℝ} (hk : k ≠ 0) (table : String → ℝ → ℝ) (q : PropGeom) (cg : V3) (units : Option String)
    (pts : Option (ι → V3)) :
    mkPropM table (q.scale k) (k • cg) units (pts.map fun p i => k • p i) = (mkPropM table q cg units pts).map (PropM.scale k) := by
  by_cases hd : q.diameter = 0
  · have hd' : (q.scale k).diameter = 0 := by show k * q.diameter = 0; rw [hd, mul_zero]
    unfold mkPropM
    rw [if_pos hd, if_pos hd']
    rfl
  have hd' : ¬ (q.scale k).diameter = 0 := mul_ne_zero hk hd
  unfold mkPropM
  rw [if_neg hd, if_neg hd', show (q.scale k).nodes = q.nodes from rfl, show (q.scale k).motor = q.motor from rfl]
  split_ifs with hn
  · rfl
  rw [bladeAf_scale hk]
  rcases bladeAf q with e | af
  · rfl
  have hp0 : bladePitch table (q.scale k) (zetaAt (q.scale k) 0) (zetaAt (q.scale k) 0 * (q.scale k).diameter * 0.5) (af 0).aL0 =
      bladePitch table q (zetaAt q 0) (zetaAt q 0 * q.diameter * 0.5) (af 0).aL0 := by
    rw [radius_scale hk, zetaAt_scale hk, bladePitch_scale hk _ _ hd]
  have hc0 : bladeChord table (q.scale k) (zetaAt (q.scale k) 0) = (bladeChord table q (zetaAt q 0)).map (·.map (k * ·)) := by
    rw [zetaAt_scale hk, bladeChord_scale hk]
  simp only [bind, Except.bind, hp0, hc0, stnAt_scale hk table q hd]
  rcases bladePitch table q (zetaAt q 0) (zetaAt q 0 * q.diameter * 0.5) (af 0).aL0 with e | b0
  · rfl
  simp only
  rcases bladeChord table q (zetaAt q 0) with e | c0
  · rfl
  simp only [Except.map]
  rcases calcMotor q.motor with e | mo
  · rfl
  simp only [Option.isSome_map]
  split_ifs with h
  · simp only [pure, Except.pure, Except.ok.injEq]
    unfold PropM.scale
    simp only [PropM.mk.injEq, true_and, and_true]
    funext i
    rcases stnAt table q (af i) i with _ | s
    · simp [Stn.zero, Stn.scale]
    · rfl
  · rfl

/-! ### Equal coefficients -/

section
variable (k : ℝ) (M : PropM ι)

theorem getCL_scale : getCL (M.scale k) = getCL M := rfl
theorem getCD_scale : getCD (M.scale k) = getCD M := rfl
theorem getCLa_scale : getCLa (M.scale k) = getCLa M := rfl
theorem eiFunction_scale : eiFunction (M.scale k) = eiFunction M := rfl

theorem eiLoop_scale (einf : ℕ → ℝ) (fuel c : ℕ) (x0 x1 x2 y0 y1 : ℕ → ℝ) :
    eiLoop (M.scale k) einf fuel c x0 x1 x2 y0 y1 = eiLoop M einf fuel c x0 x1 x2 y0 y1 := by
  induction fuel generalizing c x0 x1 x2 y0 y1 with
  | zero => rfl
  | succ fuel ih =>
    unfold eiLoop
    simp only [ih, eiFunction_scale]
    rfl

theorem findEi_scale (fuel : ℕ) (einf : ℕ → ℝ) : findEi (M.scale k) fuel einf = findEi M fuel einf := by
  unfold findEi
  simp only [eiLoop_scale, eiFunction_scale]

theorem findCoefs_scale (simps : List ℝ → List ℝ → ℝ) (fuel : ℕ) (J : ℝ) :
    findCoefs (M.scale k) simps fuel J = findCoefs M simps fuel J := by
  unfold findCoefs
  simp only [findEi_scale]
  rfl

end

/-! ### States that differ in the rotation rate only -/

/-- the same action from a state with another rotation rate: same outcome, same changes -/
def IgnoresRps {α : Type} (x : Act PropSt α) : Prop :=
  ∀ (st : PropSt) (n : ℝ), x { st with rps := n } = ((x st).1, { (x st).2 with rps := n })

namespace IgnoresRps
variable {α β : Type}

theorem bind {x : Act PropSt α} {f : α → Act PropSt β} (hx : IgnoresRps x) (hf : ∀ a, IgnoresRps (f a)) : IgnoresRps (x >>= f) := by
  intro st n
  rw [bind_def, bind_def, hx]
  rcases x st with ⟨_ | a, s⟩
  · rfl
  · exact hf a s n

theorem pure (a : α) : IgnoresRps (Pure.pure a : Act PropSt α) := fun _ _ => rfl
theorem raise (e : PyErr) : IgnoresRps (Act.raise e : Act PropSt α) := fun _ _ => rfl
theorem finite (p : Prop) : IgnoresRps (Act.finite p) := by
  classical
  unfold Act.finite
  split_ifs
  · exact fun _ _ => rfl
  · exact fun _ _ => rfl
theorem allSome (n : ℕ) (f : ℕ → Option ℝ) : IgnoresRps (Act.allSome n f) := by
  classical
  unfold Act.allSome
  split_ifs
  · exact fun _ _ => rfl
  · exact fun _ _ => rfl
theorem ite {c : Prop} [Decidable c] {x y : Act PropSt α} (hx : IgnoresRps x) (hy : IgnoresRps y) :
    IgnoresRps (if c then x else y) := by split_ifs; exacts [hx, hy]

theorem getCL (M : PropM ι) (a : ℕ → ℝ) : IgnoresRps (getCL M a) :=
  bind (fun _ _ => rfl) fun _ => allSome _ _
theorem eiFunction (M : PropM ι) (einf ei : ℕ → ℝ) : IgnoresRps (eiFunction M einf ei) :=
  bind (getCL M _) fun _ => bind (finite _) fun _ => pure _

theorem eiLoop (M : PropM ι) (einf : ℕ → ℝ) (fuel k : ℕ) (x0 x1 x2 y0 y1 : ℕ → ℝ) :
    IgnoresRps (eiLoop M einf fuel k x0 x1 x2 y0 y1) := by
  induction fuel generalizing k x0 x1 x2 y0 y1 with
  | zero => exact raise _
  | succ fuel ih =>
    unfold Verif.eiLoop
    exact ite (pure _) (bind (eiFunction M _ _) fun _ => ih _ _ _ _ _ _)

theorem findEi (M : PropM ι) (fuel : ℕ) (einf : ℕ → ℝ) : IgnoresRps (findEi M fuel einf) := by
  intro st n
  unfold Verif.findEi
  rw [get_bind, get_bind]
  exact bind (eiFunction M _ _) (fun _ => bind (eiFunction M _ _) fun _ => eiLoop M _ _ _ _ _ _ _ _) st n

theorem findCoefs (M : PropM ι) (simps : List ℝ → List ℝ → ℝ) (fuel : ℕ) (J : ℝ) : IgnoresRps (findCoefs M simps fuel J) := by
  unfold Verif.findCoefs
  refine bind (fun st n => ?_) fun _ => bind (finite _) fun _ => bind (findEi M _ _) fun _ => bind (fun _ _ => rfl) fun _ => ?_
  · unfold Act.change
    simp only
    split_ifs <;> rfl
  · unfold coefsAt
    refine bind (getCL M _) fun _ => bind (bind (fun _ _ => rfl) fun _ => allSome _ _) fun _ => bind ?_ fun _ => pure _
    unfold getCLa
    exact bind (getCL M _) fun _ => bind (getCL M _) fun _ => pure _

end IgnoresRps

/-! ### Forces -/

/-- forces scale with `rho n^2 k^4`, moments with one more `k` -/
theorem forcesOf_scale {k : ℝ} {M : PropM ι} {fl fl' : PFlow} {n n' : ℝ} {c : Coefs} {o : PropOut} (hu : fl'.u = fl.u)
    (h : forcesOf M fl n c = .ok o) :
    ∃ o', forcesOf (M.scale k) fl' n' c = .ok o' ∧ o'.n = n' ∧
      (fl.rho * n ^ 2) • o'.F = (fl'.rho * n' ^ 2 * k ^ 4) • o.F ∧
      (fl.rho * n ^ 2) • o'.M = (fl'.rho * n' ^ 2 * k ^ 5) • o.M ∧
      fl.rho * n ^ 2 * o'.T = fl'.rho * n' ^ 2 * k ^ 4 * o.T ∧
      fl.rho * n ^ 2 * o'.l = fl'.rho * n' ^ 2 * k ^ 5 * o.l := by
  have hf : (M.scale k).fwd = M.fwd := rfl
  have hr : (M.scale k).rot = M.rot := rfl
  have hd : (M.scale k).d = k * M.d := rfl
  have hp : (M.scale k).geom.position = k • M.geom.position := rfl
  have hc : (M.scale k).cg = k • M.cg := rfl
  unfold forcesOf at h ⊢
  simp only [hf, hr, hd, hp, hc, hu, bind, Except.bind] at h ⊢
  split_ifs at h ⊢ with h1 h2
  · simp only [pure, Except.pure, Except.ok.injEq] at h ⊢
    refine ⟨_, rfl, rfl, ?_⟩
    rw [← h]
    refine ⟨?_, ?_, ?_, ?_⟩
    · ext <;> simp <;> ring
    · ext <;> simp <;> ring
    · simp only; ring
    · simp only; ring
  · simp only [pure, Except.pure, Except.ok.injEq] at h ⊢
    refine ⟨_, rfl, rfl, ?_⟩
    rw [← h]
    refine ⟨?_, ?_, ?_, ?_⟩
    · ext <;> simp <;> ring
    · ext <;> simp <;> ring
    · simp only; ring
    · simp only; ring

theorem calcForces_scale {k : ℝ} {M : PropM ι} {fl fl' : PFlow} {n n' J : ℝ} {st st1 : PropSt} {o : PropOut} (hu : fl'.u = fl.u)
    (h : calcForces M simps fuel fl (.atJ J) { st with rps := n } = (.ok o, st1)) :
    ∃ o' st1', calcForces (M.scale k) simps fuel fl' (.atJ J) { st with rps := n' } = (.ok o', st1') ∧ o.n = n ∧ o'.n = n' ∧
      (fl.rho * n ^ 2) • o'.F = (fl'.rho * n' ^ 2 * k ^ 4) • o.F ∧
      (fl.rho * n ^ 2) • o'.M = (fl'.rho * n' ^ 2 * k ^ 5) • o.M ∧
      fl.rho * n ^ 2 * o'.T = fl'.rho * n' ^ 2 * k ^ 4 * o.T ∧
      fl.rho * n ^ 2 * o'.l = fl'.rho * n' ^ 2 * k ^ 5 * o.l := by
  have hn : ¬ M.nodes < 2 := by
    intro hn
    unfold calcForces at h
    obtain ⟨c, s1, -, h⟩ := bind_ok.1 h
    rw [if_pos hn] at h
    simp at h
  obtain ⟨c, h1, h2⟩ := calcForces_ok h
  have h1 : findCoefs M simps fuel J { st with rps := n } = (.ok c, st1) := h1
  have e := IgnoresRps.findCoefs M simps fuel J { st with rps := n } n'
  have e2 := keeps_rps_findCoefs M simps fuel J { st with rps := n }
  rw [h1] at e e2
  have e2 : st1.rps = n := e2
  rw [e2] at h2
  obtain ⟨o', f1, f2, f⟩ := forcesOf_scale (k := k) (n' := n') hu h2
  refine ⟨o', { st1 with rps := n' }, ?_, (forcesOf_out h2).1, f2, f⟩
  unfold calcForces
  rw [bind_of_ok (show driveCoefs (M.scale k) simps fuel fl' (.atJ J) { st with rps := n' } = (.ok c, { st1 with rps := n' }) by
    show findCoefs (M.scale k) simps fuel J _ = _
    rw [findCoefs_scale]; exact e), if_neg (show ¬ (M.scale k).nodes < 2 from hn), get_bind]
  exact lift_eq_ok.2 ⟨f1, rfl⟩

/-- **C64.** Take a propeller and the geometrically similar one, `k` times as large, in flows of the same direction but any
airspeeds and densities, both given the same advance ratio `J` and starting from the same induced angles.  If the analysis of
the first succeeds so does that of the second; forces are in the ratio `rho' n'^2 D'^4 : rho n^2 D^4`, torque and moments
in the ratio `rho' n'^2 D'^5 : rho n^2 D^5`, and the rotation rates are those of the advance ratio. -/
theorem C64_similarity {k : ℝ} (hk : k ≠ 0) {table : String → ℝ → ℝ} {q : PropGeom} {cg : V3} {units : Option String}
    {pts : Option (ι → V3)} {M M' : PropM ι} (hM : mkPropM table q cg units pts = .ok M)
    (hM' : mkPropM table (q.scale k) (k • cg) units (pts.map fun p i => k • p i) = .ok M')
    {aero aero' : Option (AeroDict ι)} {fl fl' : PFlow} (hf : propFlow aero = .ok fl) (hf' : propFlow aero' = .ok fl')
    (hu : fl'.u = fl.u) (hV : fl.V ≠ 0) (hV' : fl'.V ≠ 0) {J : ℝ} (hJ : J ≠ 0) {st st1 : PropSt} {r : ℝ} {o : PropOut}
    (h : runProp simps fuel M aero [("J", .num J)] st = (.ok o, st1)) :
    ∃ o' st1', runProp simps fuel M' aero' [("J", .num J)] { st with rps := r } = (.ok o', st1') ∧
      o.n = fl.V / (q.diameter * J) ∧ o'.n = fl'.V / (k * q.diameter * J) ∧
      (fl.rho * o.n ^ 2 * q.diameter ^ 4) • o'.F = (fl'.rho * o'.n ^ 2 * (k * q.diameter) ^ 4) • o.F ∧
      (fl.rho * o.n ^ 2 * q.diameter ^ 5) • o'.M = (fl'.rho * o'.n ^ 2 * (k * q.diameter) ^ 5) • o.M ∧
      fl.rho * o.n ^ 2 * q.diameter ^ 4 * o'.T = fl'.rho * o'.n ^ 2 * (k * q.diameter) ^ 4 * o.T ∧
      fl.rho * o.n ^ 2 * q.diameter ^ 5 * o'.l = fl'.rho * o'.n ^ 2 * (k * q.diameter) ^ 5 * o.l := by
  rw [mkPropM_scale hk, hM] at hM'
  cases hM'
  have hg : M.geom = q := (mkPropM_ok hM).2.2.1
  have hd : M.d = q.diameter := by unfold PropM.d; rw [hg]
  have hd' : (M.scale k).d = k * q.diameter := by rw [← hd]; rfl
  rw [runProp_eq M hf, bind_of_ok (set_J M _ st (has_singleton _ _) hJ hV)] at h
  obtain ⟨o', st1', g1, g2, g3, g4, g5, g6, g7⟩ := calcForces_scale (k := k) (n' := fl'.V / ((M.scale k).d * J)) hu h
  refine ⟨o', st1', ?_, by rw [g2, hd], by rw [g3, hd'], ?_, ?_, ?_, ?_⟩
  · rw [runProp_eq _ hf', bind_of_ok (set_J _ _ _ (has_singleton _ _) hJ hV')]
    exact g1
  · rw [g2, g3]
    have := congrArg ((q.diameter ^ 4) • ·) g4
    simp only [smul_smul] at this
    convert this using 2 <;> ring
  · rw [g2, g3]
    have := congrArg ((q.diameter ^ 5) • ·) g5
    simp only [smul_smul] at this
    convert this using 2 <;> ring
  · rw [g2, g3]
    linear_combination q.diameter ^ 4 * g6
  · rw [g2, g3]
    linear_combination q.diameter ^ 5 * g7

/-- **C64, airspeed.** The same propeller at `k` times the airspeed and the same advance ratio: `k` times the rotation rate and `k^2` times
the loads. -/
theorem C64_speed {k : ℝ} (hk : k ≠ 0) {M : PropM ι} {V rho : ℝ} {a b : Option ℝ} {fl : PFlow}
    (hf : propFlow (some { Vmag := some V, rho := some rho, alpha := a, beta := b } : Option (AeroDict ι)) = .ok fl) (hV : V ≠ 0)
    {J : ℝ} (hJ : J ≠ 0) {st st1 : PropSt} {r : ℝ} {o : PropOut} (hr : fl.rho ≠ 0) (hd : M.d ≠ 0)
    (h : runProp simps fuel M (some { Vmag := some V, rho := some rho, alpha := a, beta := b }) [("J", .num J)] st = (.ok o, st1)) :
    ∃ o' st1', runProp simps fuel M (some { Vmag := some (k * V), rho := some rho, alpha := a, beta := b }) [("J", .num J)]
        { st with rps := r } = (.ok o', st1') ∧
      o'.n = k * o.n ∧ o'.F = k ^ 2 • o.F ∧ o'.M = k ^ 2 • o.M ∧ o'.T = k ^ 2 * o.T ∧ o'.l = k ^ 2 * o.l := by
  have hfl : fl.V = V ∧ propFlow (some { Vmag := some (k * V), rho := some rho, alpha := a, beta := b } : Option (AeroDict ι)) =
      .ok { fl with V := k * V } := by
    unfold propFlow at hf ⊢
    simp only [AeroDict.truthy, Option.isSome, Bool.true_or, Bool.or_true, if_true] at hf ⊢
    split at hf
    · cases hf
    · cases hf
      exact ⟨rfl, rfl⟩
  obtain ⟨hv, hf'⟩ := hfl
  rw [runProp_eq M hf, bind_of_ok (set_J M _ st (has_singleton _ _) hJ (by rw [hv]; exact hV))] at h
  have h1 : M.scale 1 = M := by
    unfold PropM.scale PropGeom.scale Stn.scale
    rcases M with ⟨⟨nm, pos, ori, nod, dia, hub, bl, rd, ⟨pt, pv, pf, pi, pr, ptip⟩, ⟨ct, cv, cf, ci, cr, ctip⟩, mo, af⟩, stn, mot, pts, cg, un⟩
    simp only [one_smul, one_mul, Option.map_id', PropM.mk.injEq, PropGeom.mk.injEq, true_and, and_true, PropTable.mk.injEq]
    split_ifs <;> rfl
  obtain ⟨o', st1', g1, g2, g3, g4, g5, g6, g7⟩ := calcForces_scale (k := 1) (fl' := { fl with V := k * V })
    (n' := k * V / (M.d * J)) rfl h
  rw [h1] at g1
  have hn : fl.V / (M.d * J) ≠ 0 := div_ne_zero (by rw [hv]; exact hV) (mul_ne_zero hd hJ)
  have hc : fl.rho * (fl.V / (M.d * J)) ^ 2 ≠ 0 := mul_ne_zero hr (pow_ne_zero _ hn)
  have e : fl.rho * (k * V / (M.d * J)) ^ 2 = fl.rho * (fl.V / (M.d * J)) ^ 2 * k ^ 2 := by rw [hv]; ring
  refine ⟨o', st1', ?_, by rw [g2, g3, hv, mul_div_assoc], ?_, ?_, ?_, ?_⟩
  · rw [runProp_eq _ hf', bind_of_ok (set_J _ _ _ (has_singleton _ _) hJ (mul_ne_zero hk hV))]
    exact g1
  · rw [one_pow, mul_one, e, mul_smul (_ * _) (k ^ 2)] at g4
    exact smul_right_injective V3 hc g4
  · rw [one_pow, mul_one, e, mul_smul (_ * _) (k ^ 2)] at g5
    exact smul_right_injective V3 hc g5
  · rw [one_pow, mul_one, e, mul_assoc (_ * _) (k ^ 2)] at g6
    exact mul_left_cancel₀ hc g6
  · rw [one_pow, mul_one, e, mul_assoc (_ * _) (k ^ 2)] at g7
    exact mul_left_cancel₀ hc g7

/-- the hypotheses are met: the example propeller, its double, and its analysis at `J = 0.5` -/
example : ∃ (M M' : PropM ℕ) (mem : ℕ → ℕ → Option ℝ), mkPropM (fun _ _ => 0) demoProp 0 none none = .ok M ∧
    mkPropM (fun _ _ => 0) (demoProp.scale 2) ((2 : ℝ) • 0) none none = .ok M' ∧
    ∃ o st1, runProp (fun _ _ => 1) 1 M (some { Vmag := some 10, rho := some 0.002 }) [("J", .num 0.5)] { mem } = (.ok o, st1) ∧
      o.T ≠ 0 := by
  obtain ⟨M, hM, -, hd, -⟩ := demo_ok (ι := ℕ) (fun _ _ => 0) 0 none none
  obtain ⟨mem, h⟩ := demo_run hM 10 0.002 (J := 0.5) (by norm_num) (by norm_num) (fun _ => 1) _ 0 _
    (fun s => set_J M 10 s (has_singleton _ _) (by norm_num) (by norm_num)) 15
  obtain ⟨o, st', r1, n1, -, C1, T1, -⟩ := h (fun _ _ => 1) 0
  refine ⟨M, M.scale 2, mem, hM, ?_, o, st', r1, ?_⟩
  · have := mkPropM_scale (ι := ℕ) (k := 2) two_ne_zero (fun _ _ => 0) demoProp 0 none none
    rw [hM] at this
    exact this
  · rw [T1, C1]
    unfold overBlade
    rw [hd]
    have := Real.pi_pos
    positivity

end Verif
