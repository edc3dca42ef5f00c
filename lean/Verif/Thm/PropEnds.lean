import Verif.Lemmas.PropEnds
import Verif.Thm.PropState
import Verif.Examples.Prop

/-!
# C144: a propeller analysis comes to an end
-/

namespace Verif
open V3 Act

variable {ι : Type} {simps : List ℝ → List ℝ → ℝ}

/-- **C144, one outcome.** An analysis that has ended within some number of passes of its loops has the same outcome, and leaves
the propeller in the same state, however many more passes it might have made. -/
theorem C144_outcome (M : PropM ι) {fuel fuel' : ℕ} (hf : fuel ≤ fuel') (aero : Option (AeroDict ι)) (s : PropDict) (st : PropSt)
    (h : Ended (runProp simps fuel M aero s st)) : runProp simps fuel' M aero s st = runProp simps fuel M aero s st :=
  Extends.runProp M simps hf aero s st h

/-- **C144, one outcome, all propellers of an aircraft.** The same for the analysis of all propellers together with the velocities
they induce at the wings. -/
theorem C144_solve {fuel fuel' : ℕ} (hf : fuel ≤ fuel') (pts : Option (ι → V3)) (aero : Option (AeroDict ι)) (ps : PropDict)
    (sls : List (PropSlot ι)) (h : Ended (propsSolve simps fuel pts aero ps sls)) :
    propsSolve simps fuel' pts aero ps sls = propsSolve simps fuel pts aero ps sls :=
  Extends.propsSolve simps hf pts aero ps sls h

/-- an analysis that ends in the first pass -/
example (simps : List ℝ → List ℝ → ℝ) : ∃ (M : PropM ℕ) (mem : ℕ → ℕ → Option ℝ), mkPropM (fun _ _ => 0) demoProp 0 none none = .ok M ∧
    Ended (runProp simps 1 M (some { Vmag := some 10, rho := some 0.002 }) [("J", .num 0.5)] { mem }) := by
  obtain ⟨M, hM, -⟩ := demo_ok (ι := ℕ) (fun _ _ => 0) 0 none none
  obtain ⟨mem, h⟩ := demo_run hM 10 0.002 (J := 0.5) (by norm_num) (by norm_num) (fun _ => 1) _ 0 [("J", .num 0.5)]
    (fun st => set_J M 10 st (has_singleton _ _) (by norm_num) (by norm_num)) 15
  obtain ⟨o, st', h, -⟩ := h simps 0
  exact ⟨M, mem, hM, by rw [h]; simp [Ended]⟩

/-- **C144, the part that holds.** With at most two nodes per blade every analysis at an advance ratio or a rotation rate, or
without a propeller state, ends within 51 passes, whatever the memory contents, the flow and the history. -/
theorem C144_two_nodes_partial {table : String → ℝ → ℝ} {q : PropGeom} {cg : V3} {units : Option String} {pts : Option (ι → V3)}
    {M : PropM ι} (hM : mkPropM table q cg units pts = .ok M) (hq : q.nodes ≤ 2) (aero : Option (AeroDict ι)) {s : PropDict}
    (hs : s = [] ∨ (∃ J, Has s "J" J) ∨ (Lacks s "J" ∧ ∃ n, Has s "rot_per_sec" n))
    (hn : Lacks s "rot_per_sec" ∨ ∃ n, Has s "rot_per_sec" n) (st : PropSt) {fuel : ℕ} (hf : 51 ≤ fuel) :
    Ended (runProp simps fuel M aero s st) := by
  have hN : M.nodes ≤ 2 := by
    unfold PropM.nodes; rw [(mkPropM_ok hM).2.2.1]; exact hq
  have flow : ∀ fl : Except PyErr PFlow, fl = propFlow aero → fl ≠ .error .recursion := by
    rintro fl rfl
    unfold propFlow
    split
    · split_ifs
      · split
        · simp
        · split
          · simp
          · split <;> simp
      · simp
    · simp
  unfold runProp
  rcases e : propFlow aero with er | fl
  · intro h0
    exact flow _ rfl (by rw [e]; simpa using h0)
  rw [lift_ok_bind]
  have run : ∀ J st, Ended (calcForces M simps fuel fl (.atJ J) st) := by
    intro J
    unfold calcForces
    refine NeverEndless.bind (NeverEndless.findCoefs M simps hN hf J) fun c => ?_
    refine NeverEndless.ite (NeverEndless.raise (by simp)) (NeverEndless.bind NeverEndless.get fun st => NeverEndless.lift ?_)
    unfold forcesOf
    simp only [bind, Except.bind, pure, Except.pure]
    by_cases h1 : vecAngle M.fwd (-fl.u) = 0
    · rw [if_pos h1]; simp
    · rw [if_neg h1]
      split_ifs <;> simp
  rcases hs with rfl | ⟨J, hJ⟩ | ⟨hJ, n, hn⟩
  · rw [bind_of_ok (set_empty M fl.V st)]
    exact run _ _
  · by_cases h0 : J = 0 ∨ fl.V = 0
    · rcases hn with hn | ⟨n, hn⟩
      · rw [bind_of_error (set_J_missing M fl.V st hJ h0 hn)]
        simp [Ended]
      · rw [bind_of_ok (set_J_static M fl.V st hJ h0 hn)]
        exact run _ _
    · push Not at h0
      rw [bind_of_ok (set_J M fl.V st hJ h0.1 h0.2)]
      exact run _ _
  · by_cases h0 : n * M.d = 0
    · rw [bind_of_error (by rw [set_rot M fl.V st hJ hn, if_pos h0])]
      simp [Ended]
    · rw [bind_of_ok (by rw [set_rot M fl.V st hJ hn, if_neg h0])]
      exact run _ _

/-- the propeller of the example has two nodes and can be constructed -/
example : ∃ M : PropM ℕ, mkPropM (fun _ _ => 0) demoProp 0 none none = .ok M ∧ demoProp.nodes ≤ 2 ∧
    Has [("J", PSVal.num 0.5)] "J" 0.5 ∧ Lacks [("J", PSVal.num 0.5)] "rot_per_sec" := by
  obtain ⟨M, h, -⟩ := demo_ok (ι := ℕ) (fun _ _ => 0) 0 none none
  exact ⟨M, h, le_rfl, has_singleton _ _, by simp [Lacks, dictGet]⟩

/-- the example with three nodes -/
noncomputable def demoProp3 : PropGeom :=
  { name := "prop", position := ⟨-1, 0, 0⟩, orientation := (0, 0), nodes := 3, diameter := 2, hubDiameter := 1, blades := 2
    rotDir := .str "CCW", pitch := { type := some "ratio", value := some 1 }
    chord := { type := some "linear", root := some 0.07585, tip := some 0.1515483 }, motor := {}, airfoils := [("sym", demoFoil)] }

theorem demo3_zeta {i : ℕ} (hi : i < 3) : 0.5 ≤ zetaAt demoProp3 i ∧ zetaAt demoProp3 i < 1 := by
  unfold zetaAt demoProp3
  obtain rfl | rfl | rfl : i = 0 ∨ i = 1 ∨ i = 2 := by omega
  all_goals norm_num

theorem demo3_chord (table : String → ℝ → ℝ) (zeta : ℝ) : bladeChord table demoProp3 zeta = .ok (some (0.1517 * zeta)) := by
  unfold bladeChord demoProp3
  simp only [getKey, bind, Except.bind, pure, Except.pure, Option.getD_some]
  unfold linearInterp zetaAt
  rw [if_neg (by norm_num)]
  norm_num
  ring

/-- The constructor accepts the propeller. -/
theorem demo3_ok (table : String → ℝ → ℝ) (cg : V3) (units : Option String) (pts : Option (ι → V3)) :
    ∃ M : PropM ι, mkPropM table demoProp3 cg units pts = .ok M ∧ M.nodes = 3 ∧ M.geom = demoProp3 ∧
      ∀ i, i < 3 → 0.5 ≤ (M.stn i).zeta ∧ (M.stn i).zeta < 1 ∧
        (M.stn i).beta = Real.arctan (1 / (Real.pi * (M.stn i).zeta)) ∧ (M.stn i).af = demoFoil.blade ∧
        (M.stn i).dA = 0.2 * (0.1517 / 0.136 - 1) ∧ (M.stn i).chatb = 0.1517 * (M.stn i).zeta ∧
        (M.stn i).das = 0.2 + 0.2 * (0.1517 / 0.136 - 1) ∧ (M.stn i).dasNeg = -0.2 + 0.2 * (0.1517 / 0.136 - 1) := by
  have haf : bladeAf demoProp3 = .ok fun _ => demoFoil.blade := rfl
  have hnode : ∀ i, i < 3 → ∃ beta cb s,
      bladePitch table demoProp3 (zetaAt demoProp3 i) (zetaAt demoProp3 i * demoProp3.diameter * 0.5) demoFoil.blade.aL0 = .ok (some beta) ∧
      bladeChord table demoProp3 (zetaAt demoProp3 i) = .ok (some cb) ∧
      mkStn demoProp3 (zetaAt demoProp3 i) (zetaAt demoProp3 i * demoProp3.diameter * 0.5) demoFoil.blade beta cb = some s ∧
      0.5 ≤ s.zeta ∧ s.zeta < 1 ∧ s.beta = Real.arctan (1 / (Real.pi * s.zeta)) ∧ s.af = demoFoil.blade ∧
      s.dA = 0.2 * (0.1517 / 0.136 - 1) ∧ s.chatb = 0.1517 * s.zeta ∧
      s.das = 0.2 + 0.2 * (0.1517 / 0.136 - 1) ∧ s.dasNeg = -0.2 + 0.2 * (0.1517 / 0.136 - 1) := by
    intro i hi
    obtain ⟨hz, hz1⟩ := demo3_zeta hi
    have hpos : 0 < zetaAt demoProp3 i := lt_of_lt_of_le (by norm_num) hz
    have hr : zetaAt demoProp3 i * demoProp3.diameter * 0.5 = zetaAt demoProp3 i := by
      simp only [demoProp3]; ring
    rw [hr]
    obtain ⟨s, h1, h2, h3, h4, h5, h6, h7, h8, h9, h10, h11, h12⟩ :=
      demo_stn (beta := Real.arctan (1 / (Real.pi * zetaAt demoProp3 i))) (cb := 0.1517 * zetaAt demoProp3 i) hpos.ne' hpos.ne' rfl
    exact ⟨_, _, s, demo_pitch table (zetaAt demoProp3 i) hpos, demo3_chord table _, h1, by rw [h2]; exact hz, by rw [h2]; exact hz1, by rw [h4, h2], h7,
      h10, by rw [h6, h2], h11, h12⟩
  obtain ⟨M, hM⟩ := mkPropM_of (ι := ι) (table := table) cg units pts (q := demoProp3) (mo := none) (by norm_num [demoProp3])
    (by norm_num [demoProp3]) haf (by simp [calcMotor, demoProp3]) (fun i hi => by
      obtain ⟨b, c, s, h1, h2, h3, -⟩ := hnode i hi
      exact ⟨b, c, s, h1, h2, h3⟩)
  obtain ⟨-, -, hg, -, -, -, -, af, haf', hst⟩ := mkPropM_ok hM
  rw [haf] at haf'
  cases haf'
  refine ⟨M, hM, by unfold PropM.nodes; rw [hg]; rfl, hg, fun i hi => ?_⟩
  obtain ⟨b, c, h1, h2, h3⟩ := hst i hi
  obtain ⟨b', c', s, g1, g2, g3, g⟩ := hnode i hi
  rw [g1] at h1; cases h1
  rw [g2] at h2; cases h2
  rw [g3] at h3; cases h3
  exact g

/-- **C144 fails.** For the example propeller with three nodes, at the advance ratio 1 and any airspeed (not 0) and density, there
are memory contents with which the first analysis never ends: the starting angles put every section at zero angle of attack, where
the lift is uninitialised memory, and the search comes back to them in every pass. -/
theorem C144_refuted {table : String → ℝ → ℝ} {cg : V3} {units : Option String} {pts : Option (ι → V3)} {M : PropM ι}
    (hM : mkPropM table demoProp3 cg units pts = .ok M) {V : ℝ} (hV : V ≠ 0) (rho : ℝ) :
    ∃ mem, ∀ (simps : List ℝ → List ℝ → ℝ) (fuel : ℕ),
      ¬ Ended (runProp simps fuel M (some { Vmag := some V, rho := some rho }) [("J", .num 1)] { mem }) := by
  obtain ⟨M', hM', hn, hgeom, hs⟩ := demo3_ok (ι := ι) table cg units pts
  rw [hM] at hM'; cases hM'
  have hpi := Real.pi_gt_d2
  norm_num at hpi
  have heq : ∀ i, i < 3 → einfAt 1 (M.stn i).zeta = (M.stn i).beta := by
    intro i hi
    obtain ⟨h1, -, h3, -⟩ := hs i hi
    unfold einfAt
    rw [arctan2_pos _ (mul_pos Real.pi_pos (lt_of_lt_of_le (by norm_num) h1)), h3]
  have hb : ∀ i, i < 3 → 1e-4 < (M.stn i).beta ∧ (M.stn i).beta < 1 := by
    intro i hi
    obtain ⟨h1, h2, h3, -⟩ := hs i hi
    have hp : 0 < Real.pi * (M.stn i).zeta := mul_pos Real.pi_pos (lt_of_lt_of_le (by norm_num) h1)
    have hx : 0 < 1 / (Real.pi * (M.stn i).zeta) := div_pos one_pos hp
    rw [h3]
    constructor
    · have ht : Real.tan 1e-4 < 1 / (Real.pi * (M.stn i).zeta) := by
        have hc : (0.9 : ℝ) < Real.cos 1e-4 := lt_of_lt_of_le (by norm_num) (Real.one_sub_sq_div_two_le_cos (x := 1e-4))
        have hsn : Real.sin 1e-4 ≤ 1e-4 := Real.sin_le (by norm_num)
        have hc0 : 0 < Real.cos 1e-4 := lt_trans (by norm_num) hc
        have : Real.tan 1e-4 < 0.2 := by
          rw [Real.tan_eq_sin_div_cos, div_lt_iff₀ hc0]
          norm_num at hc hsn ⊢
          linarith
        refine this.trans ?_
        rw [lt_div_iff₀ hp]
        have := Real.pi_lt_d2
        norm_num at this ⊢
        nlinarith
      rw [← Real.arctan_tan (x := 1e-4) (by norm_num; linarith) (by norm_num; linarith)]
      exact Real.arctan_strictMono ht
    · refine (arctan_lt_self hx).trans ?_
      rw [div_lt_one hp]
      norm_num at h1
      nlinarith
  have hg : ∀ i, i < 3 → goldstein M i ≤ 1 := by
    intro i hi
    unfold goldstein
    rw [hn]
    have hs1 := Real.sin_pos_of_pos_of_lt_pi (lt_trans (by norm_num) (hb 2 (by norm_num)).1) (by linarith [(hb 2 (by norm_num)).2])
    rw [Real.exp_le_one_iff]
    refine div_nonpos_of_nonpos_of_nonneg ?_ (by linarith)
    have h0 : 0 ≤ M.blades := by unfold PropM.blades; positivity
    have := (hs i hi).2.1
    nlinarith
  have hmild : Mild M 1 := by
    constructor
    · rw [hn]
      have := hb 2 (by norm_num)
      exact (Real.sin_pos_of_pos_of_lt_pi (lt_trans (by norm_num) this.1) (by linarith)).ne'
    · rw [hn]
      intro i hi
      obtain ⟨h1, h2, h3, h4, h5, h6, h7, h8⟩ := hs i hi
      have hz : 0 < (M.stn i).zeta := lt_of_lt_of_le (by norm_num) h1
      refine ⟨hg i hi, ?_, by rw [heq i hi]; simp, by rw [h5]; norm_num, by rw [h8]; norm_num, by rw [h7]; norm_num, ?_, hz.ne'⟩
      · unfold einfAt
        rw [arctan2_pos _ (mul_pos Real.pi_pos hz)]
        exact (Real.cos_arctan_pos _).ne'
      · rw [h6]; exact mul_ne_zero (by norm_num) hz.ne'
  have hd : M.d = 2 := by unfold PropM.d; rw [hgeom]; rfl
  obtain ⟨mem, h⟩ := endless hmild (by rw [hn]) (x := fun i => (M.stn i).beta - einfAt 1 (M.stn i).zeta) rfl rfl (j := 0)
    (by rw [hn]; norm_num) (by
      obtain ⟨h1, h2, h3, h4, h5, h6, h7, h8⟩ := hs 0 (by norm_num)
      have hz : 0 < (M.stn 0).zeta := lt_of_lt_of_le (by norm_num) h1
      simp only [heq 0 (by norm_num), sub_self, zero_mul, zero_sub, sub_zero, mul_one]
      rw [h6, h4]
      have e1 : 0.1517 * (M.stn 0).zeta / (8 * (M.stn 0).zeta) = 0.1517 / 8 := by field_simp
      have e2 : demoFoil.blade.CLa = 6 := rfl
      rw [e1, e2, Real.tan_neg]
      have t0 : 0 ≤ Real.tan 1e-4 := (Real.tan_nonneg_of_nonneg_of_le_pi_div_two (by norm_num) (by norm_num; linarith))
      have s0 : 0 ≤ Real.sin ((M.stn 0).beta + -1e-4) :=
        Real.sin_nonneg_of_nonneg_of_le_pi (by have := (hb 0 (by norm_num)).1; linarith)
          (by have := (hb 0 (by norm_num)).2; norm_num; linarith)
      have := mul_nonneg (mul_nonneg (Real.arccos_nonneg (goldstein M 0)) t0) s0
      norm_num at this ⊢
      linarith) (V / (M.d * 1)) 0
  refine ⟨mem, fun simps fuel => ?_⟩
  unfold runProp
  rw [demo_flow, lift_ok_bind, bind_of_ok (set_J M V _ (has_singleton _ _) one_ne_zero hV)]
  unfold calcForces
  have k := h simps fuel
  rcases e : findCoefs M simps fuel 1 { rps := V / (M.d * 1), mem } with ⟨er | a, s1⟩
  · rw [e] at k
    simp only [Except.error.injEq] at k
    rw [bind_of_error (show driveCoefs M simps fuel ⟨rho, V, ⟨-1, 0, 0⟩⟩ (.atJ 1) _ = _ from e), k]
    simp [Ended]
  · rw [e] at k
    cases k

/-- the constructor accepts the propeller -/
example : ∃ M : PropM ℕ, mkPropM (fun _ _ => 0) demoProp3 0 none none = .ok M :=
  (demo3_ok (ι := ℕ) (fun _ _ => 0) 0 none none).imp fun _ h => h.1

end Verif
