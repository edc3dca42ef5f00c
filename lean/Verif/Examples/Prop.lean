import Verif.Lemmas.PropFirst

/-!
# A concrete propeller

Two blades, diameter 2, hub diameter 1, two nodes, a symmetric airfoil, pitch-to-diameter ratio 1 and a linear chord.
-/

namespace Verif
open V3 Act

/-- the airfoil of the example -/
noncomputable def demoFoil : Airfoil :=
  { name := "sym", spanPosition := none, al0 := 0, cla := 6, clMax := 1.2, cml0 := 0, cma := 0, cd0 := 0.01, cd1 := 0, cd2 := 0.01 }

/-- the propeller of the example -/
noncomputable def demoProp : PropGeom :=
  { name := "prop", position := ⟨-1, 0, 0⟩, orientation := (0, 0), nodes := 2, diameter := 2, hubDiameter := 1, blades := 2
    rotDir := .str "CCW", pitch := { type := some "ratio", value := some 1 }
    chord := { type := some "linear", root := some 0.07585, tip := some 0.1515483 }, motor := {}, airfoils := [("sym", demoFoil)] }

/-- a constructor call that goes well at every node -/
theorem mkPropM_of {ι : Type} {table : String → ℝ → ℝ} {q : PropGeom} (cg : V3) (units : Option String) (pts : Option (ι → V3))
    {af : ℕ → BladeAf} {mo : Option Motor} (hd : q.diameter ≠ 0) (hn : q.nodes ≠ 0) (haf : bladeAf q = .ok af)
    (hm : calcMotor q.motor = .ok mo)
    (h : ∀ i, i < q.nodes → ∃ beta cb s,
      bladePitch table q (zetaAt q i) (zetaAt q i * q.diameter * 0.5) (af i).aL0 = .ok (some beta) ∧
      bladeChord table q (zetaAt q i) = .ok (some cb) ∧
      mkStn q (zetaAt q i) (zetaAt q i * q.diameter * 0.5) (af i) beta cb = some s) :
    ∃ M, mkPropM table q cg units pts = .ok M := by
  unfold mkPropM
  rw [if_neg hd, if_neg hn]
  obtain ⟨b0, c0, s0, h1, h2, -⟩ := h 0 (Nat.pos_of_ne_zero hn)
  simp only [haf, hm, bind, Except.bind, h1, h2]
  rw [if_pos]
  · exact ⟨_, rfl⟩
  · intro i hi
    obtain ⟨b, c, s, h1, h2, h3⟩ := h i hi
    unfold stnAt
    rw [h1, h2]
    simp only [h3]
    rfl

theorem demo_zeta0 : zetaAt demoProp 0 = 0.5 := by
  unfold zetaAt demoProp; norm_num
theorem demo_zeta1 : zetaAt demoProp 1 = 0.999 := by
  unfold zetaAt demoProp; norm_num

theorem demo_pitch (table : String → ℝ → ℝ) {zeta : ℝ} (r : ℝ) (hz : 0 < zeta) :
    bladePitch table demoProp zeta r 0 = .ok (some (Real.arctan (1 / (Real.pi * zeta)))) := by
  unfold bladePitch demoProp
  simp only [getKey, bind, Except.bind, pure, Except.pure, Option.getD_none]
  have hz' : 0 < Real.pi * zeta := mul_pos Real.pi_pos hz
  unfold aeroPitch
  simp only [Real.cos_zero, Real.tan_zero, mul_zero, add_zero, sub_zero]
  rw [if_neg (by push Not; exact ⟨one_ne_zero, hz'.ne'⟩), arctan2_pos _ hz']
  simp only [Option.map_some, Except.ok.injEq, Option.some.injEq]
  have : Real.pi * zeta * (1 / (Real.pi * zeta)) / (Real.pi * zeta) = 1 / (Real.pi * zeta) := by
    rw [mul_one_div_cancel hz'.ne']
  rw [this]
  simp [rad]

theorem demo_chord (table : String → ℝ → ℝ) (zeta : ℝ) :
    bladeChord table demoProp zeta = .ok (some (0.07585 + (zeta - 0.5) * ((0.1515483 - 0.07585) / 0.499))) := by
  unfold bladeChord demoProp
  simp only [getKey, bind, Except.bind, pure, Except.pure, Option.getD_some]
  unfold linearInterp
  have e0 := demo_zeta0
  have e1 := demo_zeta1
  unfold demoProp at e0 e1
  simp only [show 2 - 1 = 1 from rfl, e0, e1]
  rw [if_neg (by norm_num)]
  norm_num

/-- the numbers at a node with chord-to-radius ratio 0.1517 -/
theorem demo_stn {zeta r beta cb : ℝ} (hz : zeta ≠ 0) (hr : r ≠ 0) (hc : cb = 0.1517 * r) :
    ∃ s, mkStn demoProp zeta r demoFoil.blade beta cb = some s ∧ s.zeta = zeta ∧ s.r = r ∧ s.beta = beta ∧ s.cb = cb ∧
      s.chatb = cb ∧ s.af = demoFoil.blade ∧ s.aStall = 0.2 ∧ s.aStallNeg = 0.2 ∧ s.dA = 0.2 * (0.1517 / 0.136 - 1) ∧
      s.das = 0.2 + 0.2 * (0.1517 / 0.136 - 1) ∧ s.dasNeg = -0.2 + 0.2 * (0.1517 / 0.136 - 1) := by
  have hcr : cb / r = 0.1517 := by rw [hc]; field_simp
  have hsep : (0.1517 / (cb / r)) ^ (1 / 1.084 : ℝ) * (cb / r) / 0.136 = 0.1517 / 0.136 := by
    rw [hcr, div_self (by norm_num), Real.one_rpow, one_mul]
  have hst : demoFoil.blade.CLm / demoFoil.blade.CLa = 0.2 := by
    simp only [demoFoil, Airfoil.blade]; norm_num
  have h0 : demoFoil.blade.aL0 = 0 := rfl
  have hcos : ∀ x : ℝ, |x| < 1.5 → Real.cos x ≠ 0 := by
    intro x hx
    rw [abs_lt] at hx
    have := Real.pi_gt_d2
    refine (Real.cos_pos_of_mem_Ioo ⟨?_, ?_⟩).ne' <;> norm_num at hx this ⊢ <;> linarith
  unfold mkStn
  simp only [hsep, hst, h0, mul_zero, add_zero]
  rw [if_pos]
  · refine ⟨_, rfl, rfl, rfl, rfl, rfl, ?_, rfl, rfl, rfl, rfl, rfl, rfl⟩
    simp only [demoProp]
    norm_num
  · refine ⟨hr, hz, by simp only [demoFoil, Airfoil.blade]; norm_num, by rw [hcr]; norm_num, hcos _ ?_, hcos _ ?_, hcos _ ?_,
      hcos _ ?_⟩ <;> norm_num [abs_lt]

theorem arctan_lt_self {x : ℝ} (hx : 0 < x) : Real.arctan x < x := by
  have h1 := Real.arctan_pos.2 hx
  have := Real.lt_tan h1 (Real.arctan_lt_pi_div_two x)
  rwa [Real.tan_arctan] at this

/-- The constructor accepts the propeller, whatever else the plane has; and the propeller is unspectacular at every advance
ratio from 0 to 1. -/
theorem demo_ok {ι : Type} (table : String → ℝ → ℝ) (cg : V3) (units : Option String) (pts : Option (ι → V3)) :
    ∃ M : PropM ι, mkPropM table demoProp cg units pts = .ok M ∧ M.nodes = 2 ∧ M.d = 2 ∧
      (∀ i, i < 2 → 0 < (M.stn i).zeta ∧ (M.stn i).zeta < 1 ∧ (M.stn i).r = (M.stn i).zeta ∧
        (M.stn i).beta = Real.arctan (1 / (Real.pi * (M.stn i).zeta)) ∧
        (M.stn i).af = demoFoil.blade ∧ (M.stn i).dA = 0.2 * (0.1517 / 0.136 - 1) ∧ (M.stn i).aStall = 0.2 ∧
        (M.stn i).cb = 0.1517 * (M.stn i).zeta ∧ (M.stn i).chatb = (M.stn i).cb ∧ 0.5 ≤ (M.stn i).zeta ∧
        (M.stn i).das = 0.2 + 0.2 * (0.1517 / 0.136 - 1) ∧ (M.stn i).dasNeg = -0.2 + 0.2 * (0.1517 / 0.136 - 1)) ∧
      (M.stn 0).zeta = 0.5 ∧ (M.stn 1).zeta = 0.999 := by
  have haf : bladeAf demoProp = .ok fun _ => demoFoil.blade := rfl
  have hz : ∀ i, i < 2 → (zetaAt demoProp i = 0.5 ∨ zetaAt demoProp i = 0.999) := by
    intro i hi
    obtain rfl | rfl : i = 0 ∨ i = 1 := by omega
    · exact .inl demo_zeta0
    · exact .inr demo_zeta1
  have hnode : ∀ i, i < 2 → ∃ beta cb s,
      bladePitch table demoProp (zetaAt demoProp i) (zetaAt demoProp i * demoProp.diameter * 0.5) demoFoil.blade.aL0 = .ok (some beta) ∧
      bladeChord table demoProp (zetaAt demoProp i) = .ok (some cb) ∧
      mkStn demoProp (zetaAt demoProp i) (zetaAt demoProp i * demoProp.diameter * 0.5) demoFoil.blade beta cb = some s ∧
      s.zeta = zetaAt demoProp i ∧ s.r = s.zeta ∧ s.beta = Real.arctan (1 / (Real.pi * s.zeta)) ∧
      s.cb = 0.1517 * s.zeta ∧ s.chatb = s.cb ∧ s.af = demoFoil.blade ∧ s.dA = 0.2 * (0.1517 / 0.136 - 1) ∧ s.aStall = 0.2 ∧
      s.das = 0.2 + 0.2 * (0.1517 / 0.136 - 1) ∧ s.dasNeg = -0.2 + 0.2 * (0.1517 / 0.136 - 1) := by
    intro i hi
    have hzi := hz i hi
    have hpos : 0 < zetaAt demoProp i := by rcases hzi with h | h <;> rw [h] <;> norm_num
    have hr : zetaAt demoProp i * demoProp.diameter * 0.5 = zetaAt demoProp i := by
      simp only [demoProp]; ring
    rw [hr]
    have hcb : (0.07585 + (zetaAt demoProp i - 0.5) * ((0.1515483 - 0.07585) / 0.499) : ℝ) = 0.1517 * zetaAt demoProp i := by
      rcases hzi with h | h <;> rw [h] <;> norm_num
    obtain ⟨s, h1, h2, h3, h4, h5, h6, h7, h8, h9, h10, h11, h12⟩ :=
      demo_stn (beta := Real.arctan (1 / (Real.pi * zetaAt demoProp i))) hpos.ne' hpos.ne' hcb
    exact ⟨_, _, s, demo_pitch table _ hpos, demo_chord table _, h1, h2, by rw [h3, h2], by rw [h4, h2], by rw [h5, h2, hcb],
      by rw [h6, h5], h7, h10, h8, h11, h12⟩
  obtain ⟨M, hM⟩ := mkPropM_of (ι := ι) (table := table) cg units pts (q := demoProp) (mo := none) (by norm_num [demoProp])
    (by norm_num [demoProp]) haf (by simp [calcMotor, demoProp]) (fun i hi => by
      obtain ⟨b, c, s, h1, h2, h3, -⟩ := hnode i hi
      exact ⟨b, c, s, h1, h2, h3⟩)
  obtain ⟨-, -, hg, -, -, -, -, af, haf', hst⟩ := mkPropM_ok hM
  rw [haf] at haf'
  cases haf'
  have hstn : ∀ i, i < 2 → (M.stn i).zeta = zetaAt demoProp i ∧ (M.stn i).r = (M.stn i).zeta ∧
      (M.stn i).beta = Real.arctan (1 / (Real.pi * (M.stn i).zeta)) ∧ (M.stn i).cb = 0.1517 * (M.stn i).zeta ∧
      (M.stn i).chatb = (M.stn i).cb ∧ (M.stn i).af = demoFoil.blade ∧ (M.stn i).dA = 0.2 * (0.1517 / 0.136 - 1) ∧
      (M.stn i).aStall = 0.2 ∧
      (M.stn i).das = 0.2 + 0.2 * (0.1517 / 0.136 - 1) ∧ (M.stn i).dasNeg = -0.2 + 0.2 * (0.1517 / 0.136 - 1) := by
    intro i hi
    obtain ⟨b, c, h1, h2, h3⟩ := hst i hi
    obtain ⟨b', c', s, g1, g2, g3, g⟩ := hnode i hi
    rw [g1] at h1; cases h1
    rw [g2] at h2; cases h2
    rw [g3] at h3; cases h3
    exact g
  refine ⟨M, hM, by unfold PropM.nodes; rw [hg]; rfl, by unfold PropM.d; rw [hg]; rfl, fun i hi => ?_, ?_, ?_⟩
  · obtain ⟨g1, g2, g3, g4, g5, g6, g7, g8, g9, g10⟩ := hstn i hi
    refine ⟨?_, ?_, g2, g3, g6, g7, g8, g4, g5, ?_, g9, g10⟩ <;> rw [g1] <;> rcases hz i hi with h | h <;> rw [h] <;> norm_num
  · rw [(hstn 0 (by norm_num)).1, demo_zeta0]
  · rw [(hstn 1 (by norm_num)).1, demo_zeta1]

theorem demo_mild {ι : Type} {table : String → ℝ → ℝ} {cg : V3} {units : Option String} {pts : Option (ι → V3)} {M : PropM ι}
    (hM : mkPropM table demoProp cg units pts = .ok M) {J : ℝ} (hJ : 0 ≤ J) (hJ1 : J ≤ 1.5) : Mild M J := by
  obtain ⟨M', hM', hn, -, hs, -, -⟩ := demo_ok (ι := ι) table cg units pts
  rw [hM] at hM'; cases hM'
  have hgeom : M.geom = demoProp := (mkPropM_ok hM).2.2.1
  have hb : ∀ i, i < 2 → 0 < (M.stn i).beta ∧ (M.stn i).beta < 1 := by
    intro i hi
    obtain ⟨h1, -, -, h4, -, -, -, -, -, h9, -⟩ := hs i hi
    have hp : 0 < Real.pi * (M.stn i).zeta := mul_pos Real.pi_pos h1
    have hx : 0 < 1 / (Real.pi * (M.stn i).zeta) := div_pos one_pos hp
    rw [h4]
    refine ⟨Real.arctan_pos.2 hx, (arctan_lt_self hx).trans ?_⟩
    rw [div_lt_one hp]
    have := Real.pi_gt_d2
    norm_num at h9 this
    nlinarith
  have hpi := Real.pi_gt_d2
  norm_num at hpi
  constructor
  · rw [hn]
    have := hb 1 (by norm_num)
    exact (Real.sin_pos_of_pos_of_lt_pi this.1 (by linarith)).ne'
  · rw [hn]
    intro i hi
    have hbi := hb i hi
    obtain ⟨h1, h2, h3, h4, h5, h6, h7, h8, h9, h10, h11, h12⟩ := hs i hi
    have hp : 0 < Real.pi * (M.stn i).zeta := mul_pos Real.pi_pos h1
    refine ⟨?_, ?_, ?_, by rw [h6]; norm_num, by rw [h12]; norm_num, by rw [h11]; norm_num, ?_, h1.ne'⟩
    · unfold goldstein
      rw [hn]
      have hs1 := Real.sin_pos_of_pos_of_lt_pi (hb 1 (by norm_num)).1 (by linarith [(hb 1 (by norm_num)).2])
      rw [Real.exp_le_one_iff]
      refine div_nonpos_of_nonpos_of_nonneg ?_ (by linarith)
      have : 0 ≤ M.blades := by unfold PropM.blades; positivity
      nlinarith
    · unfold einfAt
      rw [arctan2_pos _ hp]
      exact (Real.cos_arctan_pos _).ne'
    · unfold einfAt
      rw [arctan2_pos _ hp, h4]
      have e0 : 0 ≤ Real.arctan (J / (Real.pi * (M.stn i).zeta)) := Real.arctan_nonneg.2 (div_nonneg hJ hp.le)
      have e1 : Real.arctan (J / (Real.pi * (M.stn i).zeta)) < 1 := by
        have hx : (0 : ℝ) < 1.5 / (Real.pi * (M.stn i).zeta) := div_pos (by norm_num) hp
        refine (Real.arctan_mono (div_le_div_of_nonneg_right hJ1 hp.le)).trans_lt ((arctan_lt_self hx).trans ?_)
        rw [div_lt_one hp]
        norm_num at h10 ⊢
        nlinarith
      rw [← h4]
      rw [abs_lt]
      constructor <;> linarith
    · rw [h9, h8]
      exact mul_ne_zero (by norm_num) h1.ne'

theorem freestream_zero (V : ℝ) : freestream V 0 0 = some ⟨-V, 0, 0⟩ := by
  unfold freestream rad
  simp

theorem demo_flow {ι : Type} (V rho : ℝ) : propFlow (ι := ι) (some { Vmag := some V, rho := some rho }) = .ok ⟨rho, V, ⟨-1, 0, 0⟩⟩ := by
  unfold propFlow
  simp only [AeroDict.truthy, Option.isSome, Bool.true_or, Bool.or_true, if_true, Option.getD_none, freestream_zero]

theorem demo_fwd {ι : Type} {M : PropM ι} (h : M.geom = demoProp) : M.fwd = ⟨1, 0, 0⟩ := by
  unfold PropM.fwd
  rw [h]
  simp [propForward, demoProp, rad]

theorem demo_angle {ι : Type} {M : PropM ι} (h : M.geom = demoProp) : vecAngle M.fwd (-⟨-1, 0, 0⟩) = 0 := by
  rw [demo_fwd h]
  unfold vecAngle
  simp [dot, nrm]

/-- **A complete analysis.** For every airspeed (not 0), density and advance ratio from 0 to 1.5, every wanted section lift
coefficients `g` and a propeller that has not been analysed before, there are memory contents with which the analysis
succeeds and has these lift coefficients.  Only the first and the third uninitialised array need contents that are numbers. -/
theorem demo_run_reads {ι : Type} {table : String → ℝ → ℝ} {cg : V3} {units : Option String} {pts : Option (ι → V3)} {M : PropM ι}
    (hM : mkPropM table demoProp cg units pts = .ok M) (V rho : ℝ) {J : ℝ} (hJ : 0 ≤ J) (hJ1 : J ≤ 1.5)
    (g : ℕ → ℝ) (n : ℝ) (tick : ℕ) (s : PropDict)
    (hset : ∀ st : PropSt, setPropDict M V s st = (.ok (.atJ J), { st with rps := n })) (rps : ℝ) :
    ∃ mem, (∀ k i x, mem k i = some x → k = tick ∨ k = tick + 2) ∧ ∀ (simps : List ℝ → List ℝ → ℝ) (fuel : ℕ), ∃ o st',
      runProp simps (fuel + 1) M (some { Vmag := some V, rho := some rho }) s { rps, mem, tick } = (.ok o, st') ∧
      o.n = n ∧ (∀ i, i < 2 → o.c.CL i = g i ∧ o.c.alpha i = 0 ∧
        o.c.einf i = einfAt J (M.stn i).zeta ∧ o.c.ei i = (M.stn i).beta - o.c.einf i ∧
        o.c.CD i = 0.01 + 0.01 * g i * g i) ∧
      o.c.CT = Real.pi * Real.pi / 4 * overBlade M simps (fun i => (M.stn i).zeta * (M.stn i).zeta * (M.stn i).chatb *
        (Real.cos (o.c.ei i) * Real.cos (o.c.ei i) / (Real.cos (o.c.einf i) * Real.cos (o.c.einf i))) *
        (o.c.CL i * Real.cos (o.c.einf i + o.c.ei i) - o.c.CD i * Real.sin (o.c.einf i + o.c.ei i))) ∧
      o.T = rho * (n * n) * 16 * o.c.CT ∧ o.l = rho * (n * n) * 32 * o.c.Cl * -1 := by
  have hgeom : M.geom = demoProp := (mkPropM_ok hM).2.2.1
  have hn : M.nodes = 2 := by unfold PropM.nodes; rw [hgeom]; rfl
  have hd : M.d = 2 := by unfold PropM.d; rw [hgeom]; rfl
  have hrot : M.rot = 1 := by unfold PropM.rot; rw [hgeom]; simp [PropGeom.rot, demoProp]
  obtain ⟨M', hM', -, -, hs, -, -⟩ := demo_ok (ι := ι) table cg units pts
  rw [hM] at hM'; cases hM'
  obtain ⟨mem, hread, hmem⟩ := first_solve_reads (demo_mild hM hJ hJ1) g (st := { rps := n, mem := fun _ _ => none, tick }) (fun _ _ => rfl)
  refine ⟨mem, hread, fun simps fuel => ?_⟩
  obtain ⟨c, st', h1, h2, h3, h4⟩ := hmem simps fuel
  rw [hn] at h3
  have hf : ∃ o, forcesOf M ⟨rho, V, ⟨-1, 0, 0⟩⟩ n c = .ok o ∧ o.n = n ∧ o.c = c ∧ o.T = rho * (n * n) * 16 * c.CT ∧
      o.l = rho * (n * n) * 32 * c.Cl * -1 := by
    unfold forcesOf
    simp only [demo_angle hgeom, if_true, bind, Except.bind, pure, Except.pure]
    refine ⟨_, rfl, rfl, rfl, ?_, ?_⟩
    · simp only [hd]; norm_num
    · simp only [hd, hrot]; norm_num
  obtain ⟨o, f1, f2, f3, f4, f5⟩ := hf
  refine ⟨o, st', ?_, f2, fun i hi => ?_, by rw [f3]; exact (findCoefs_integrals h1).1, by rw [f4, f3], by rw [f5, f3]⟩
  · unfold runProp
    rw [demo_flow, lift_ok_bind, bind_of_ok (hset _)]
    unfold calcForces
    rw [bind_of_ok (show driveCoefs M simps (fuel + 1) ⟨rho, V, ⟨-1, 0, 0⟩⟩ (.atJ J) _ = _ from h1), if_neg (by omega), get_bind, h2]
    exact lift_eq_ok.2 ⟨f1, rfl⟩
  · obtain ⟨k1, k2, k3, k4, k5⟩ := h3 i hi
    rw [f3]
    refine ⟨k4, k3, k1, k2, ?_⟩
    rw [k5, (hs i hi).2.2.2.2.1]
    simp only [demoFoil, Airfoil.blade]
    ring

/-- the same without the extent of the memory -/
theorem demo_run {ι : Type} {table : String → ℝ → ℝ} {cg : V3} {units : Option String} {pts : Option (ι → V3)} {M : PropM ι}
    (hM : mkPropM table demoProp cg units pts = .ok M) (V rho : ℝ) {J : ℝ} (hJ : 0 ≤ J) (hJ1 : J ≤ 1.5)
    (g : ℕ → ℝ) (n : ℝ) (tick : ℕ) (s : PropDict)
    (hset : ∀ st : PropSt, setPropDict M V s st = (.ok (.atJ J), { st with rps := n })) (rps : ℝ) :
    ∃ mem, ∀ (simps : List ℝ → List ℝ → ℝ) (fuel : ℕ), ∃ o st',
      runProp simps (fuel + 1) M (some { Vmag := some V, rho := some rho }) s { rps, mem, tick } = (.ok o, st') ∧
      o.n = n ∧ (∀ i, i < 2 → o.c.CL i = g i ∧ o.c.alpha i = 0 ∧
        o.c.einf i = einfAt J (M.stn i).zeta ∧ o.c.ei i = (M.stn i).beta - o.c.einf i ∧
        o.c.CD i = 0.01 + 0.01 * g i * g i) ∧
      o.c.CT = Real.pi * Real.pi / 4 * overBlade M simps (fun i => (M.stn i).zeta * (M.stn i).zeta * (M.stn i).chatb *
        (Real.cos (o.c.ei i) * Real.cos (o.c.ei i) / (Real.cos (o.c.einf i) * Real.cos (o.c.einf i))) *
        (o.c.CL i * Real.cos (o.c.einf i + o.c.ei i) - o.c.CD i * Real.sin (o.c.einf i + o.c.ei i))) ∧
      o.T = rho * (n * n) * 16 * o.c.CT ∧ o.l = rho * (n * n) * 32 * o.c.Cl * -1 := by
  obtain ⟨mem, -, hm⟩ := demo_run_reads hM V rho hJ hJ1 g n tick s hset rps
  exact ⟨mem, hm⟩

end Verif
