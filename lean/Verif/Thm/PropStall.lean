import Verif.Thm.PropMemory
import Verif.Thm.Blade
import Mathlib.Topology.MetricSpace.Basic
import Mathlib.Analysis.SpecialFunctions.Trigonometric.DerivHyp

/-!
# C106, C107: the coefficients of a blade section through stall

`get_coefficients_alpha` of a propeller is the public way to ask for them.
-/

namespace Verif
open V3 Act

variable {ι : Type}

/-- `get_coefficients_alpha` (`propmodel.py:1264-1269`): lift, slope of the lift curve, drag -/
noncomputable def coefficientsAlpha (M : PropM ι) (alpha : ℕ → ℝ) : Act PropSt ((ℕ → ℝ) × (ℕ → ℝ) × (ℕ → ℝ)) := do
  let CL ← getCL M alpha
  let CD ← getCD M CL alpha
  let CLa ← getCLa M alpha
  return (CL, CLa, CD)

/-- the drag polar of a section -/
noncomputable def polar (a : BladeAf) (CL : ℝ) : ℝ := a.CD0 + a.CDL * CL + a.CDL2 * CL ^ 2

/-- what a propeller knows about a section, in terms of what is known about the blade there -/
theorem mkStn_facts {q : PropGeom} {zeta r beta cb : ℝ} {af : BladeAf} {s : Stn} (h : mkStn q zeta r af beta cb = some s) :
    s.af = af ∧ s.cb = cb ∧ s.r = r ∧ af.CLa ≠ 0 ∧ s.aStall = af.CLm / af.CLa ∧ s.aStallNeg = af.CLm / af.CLa + 1.5 * af.aL0 ∧
    s.das = s.aStall + s.dA ∧ s.dasNeg = -s.aStall + s.dA ∧
    s.das = s.aStall * ((0.1517 / (cb / r)) ^ (1 / 1.084 : ℝ) * (cb / r) / 0.136) ∧
    s.A2 * Real.cos s.aStall ^ 2 = (af.CLm - cdm * Real.sin s.aStall * Real.cos s.aStall) * Real.sin s.aStall ∧
    s.A2n * Real.cos s.aStallNeg ^ 2 =
      (af.CLa * s.aStallNeg - cdm * Real.sin s.aStallNeg * Real.cos s.aStallNeg) * Real.sin s.aStallNeg ∧
    s.B2 * Real.cos s.das = polar af (af.CLa * s.das) - cdm * Real.sin s.das ^ 2 ∧
    s.B2n * Real.cos s.dasNeg = polar af (af.CLa * s.dasNeg) - cdm * Real.sin s.dasNeg ^ 2 := by
  unfold mkStn at h
  simp only at h
  split_ifs at h with hf
  obtain ⟨-, -, hf1, -, hf2, hf3, hf4, hf5⟩ := hf
  simp only [Option.some.injEq] at h
  rw [Real.cos_neg] at hf5
  rw [← h]
  refine ⟨rfl, rfl, rfl, hf1, rfl, rfl, rfl, rfl, by simp only; ring, ?_, ?_, ?_, ?_⟩
  · simp only
    field_simp
  · simp only
    rw [sq, div_mul_cancel₀ _ (mul_ne_zero hf4 hf4)]
    ring
  · unfold polar
    simp only
    rw [div_mul_cancel₀ _ hf3]
    ring
  · unfold polar
    simp only
    rw [Real.cos_neg, div_mul_cancel₀ _ hf5, Real.sin_neg]
    ring

/-- one side at its stall angle -/
theorem liftSide_stall {CLa A2 aStall CLm : ℝ} (hs : Real.sin aStall ≠ 0) (hl : CLa * aStall = CLm)
    (hA : A2 * Real.cos aStall ^ 2 = (CLm - cdm * Real.sin aStall * Real.cos aStall) * Real.sin aStall) :
    liftSide CLa A2 aStall aStall = some CLm := by
  unfold liftSide
  simp only
  split_ifs with h1
  · rw [hl]
  · rw [Real.sin_two_mul, show A2 * Real.cos aStall * Real.cos aStall = A2 * Real.cos aStall ^ 2 by ring, hA, mul_div_cancel_right₀ _ hs, hl]
    simp only [Option.some.injEq]
    ring

/-- **C106, lift.** At the delayed stall angle, on either side, the lift coefficient is that of the straight line `CL_alpha * alpha`:
the post-stall curve takes over where the line ends. -/
theorem C106_lift {q : PropGeom} {zeta r beta cb : ℝ} {af : BladeAf} {s : Stn} (h : mkStn q zeta r af beta cb = some s)
    (mem : Option ℝ) :
    (0 < s.das → Real.sin (af.CLm / af.CLa) ≠ 0 → sectionCL s mem s.das = some (af.CLa * s.das)) ∧
    (0 < s.aStallNeg + s.dA → Real.sin s.aStallNeg ≠ 0 →
      sectionCL s mem (-(s.aStallNeg + s.dA)) = some (af.CLa * -(s.aStallNeg + s.dA))) := by
  obtain ⟨h1, h2, h3, h4, h5, h6, h7, h8, h9, hA, hAn, -, -⟩ := mkStn_facts h
  constructor
  · intro hp hsn
    unfold sectionCL
    rw [if_pos hp, h1, show s.das - s.dA = s.aStall by rw [h7]; ring,
      liftSide_stall (CLm := af.CLm) (by rw [h5]; exact hsn) (by rw [h5]; field_simp) hA]
    simp only [Option.map_some, Option.some.injEq]
    rw [h7, h5]
    field_simp
  · intro hp hsn
    unfold sectionCL
    rw [if_neg (by linarith), if_pos (by linarith), h1, show - -(s.aStallNeg + s.dA) - s.dA = s.aStallNeg by ring,
      liftSide_stall (CLm := af.CLa * s.aStallNeg) hsn rfl hAn]
    simp only [Option.map_some, Option.some.injEq]
    ring

/-- two continuous pieces that agree at a point -/
theorem pieces_near {f g : ℝ × ℝ → ℝ} {p : ℝ × ℝ} {v w : ℝ} (hf : ContinuousAt f p) (hg : ContinuousAt g p) (e1 : f p = v)
    (e2 : g p = v) (hw : 0 < w) {ε : ℝ} (hε : 0 < ε) :
    ∃ δ, 0 < δ ∧ δ ≤ w ∧ ∀ x y, |x - p.1| < δ → |y - p.2| < δ → |f (x, y) - v| < ε ∧ |g (x, y) - v| < ε := by
  obtain ⟨a, ha, h1⟩ := Metric.continuousAt_iff.1 hf ε hε
  obtain ⟨b, hb, h2⟩ := Metric.continuousAt_iff.1 hg ε hε
  refine ⟨min w (min a b), by positivity, min_le_left _ _, fun x y hx hy => ?_⟩
  have hd : dist ((x, y) : ℝ × ℝ) p < min w (min a b) := by
    rw [Prod.dist_eq, Real.dist_eq, Real.dist_eq]
    exact max_lt hx hy
  have k1 := h1 (hd.trans_le ((min_le_right _ _).trans (min_le_left _ _)))
  have k2 := h2 (hd.trans_le ((min_le_right _ _).trans (min_le_right _ _)))
  rw [Real.dist_eq] at k1 k2
  rw [e1] at k1
  rw [e2] at k2
  exact ⟨k1, k2⟩

/-- **C106, drag.** The drag does not jump at the angles where the drag polar gives way to the post-stall formula: close to them, on
either side, it is close to what the polar says for the lift there. -/
theorem C106_drag {q : PropGeom} {zeta r beta cb : ℝ} {af : BladeAf} {s : Stn} (h : mkStn q zeta r af beta cb = some s)
    (hst : 0 < af.CLm / af.CLa) {ε : ℝ} (hε : 0 < ε) {a : ℝ} (ha : a = s.das ∨ a = s.dasNeg) :
    ∃ δ, 0 < δ ∧ ∀ mem alpha CL CD, |CL - af.CLa * a| < δ → |alpha - a| < δ → alpha ≠ a →
      sectionCD s mem CL alpha = some CD → |CD - polar af (af.CLa * a)| < ε := by
  obtain ⟨h1, h2, h3, h4, h5, h6, h7, h8, h9, -, -, hB, hBn⟩ := mkStn_facts h
  have hsep : s.dasNeg < s.das := by rw [h7, h8, h5]; linarith
  have cP : ∀ p : ℝ × ℝ, ContinuousAt (fun p : ℝ × ℝ => polar af p.1) p := fun p => by
    unfold polar; fun_prop
  have cV : ∀ (B : ℝ) (p : ℝ × ℝ), ContinuousAt (fun p : ℝ × ℝ => cdm * Real.sin p.2 ^ 2 + B * Real.cos p.2) p := fun B p => by
    fun_prop
  rcases ha with rfl | rfl
  · obtain ⟨δ, hδ, hw, hk⟩ := pieces_near (cP (af.CLa * s.das, s.das)) (cV s.B2 _) rfl (by simp only; linarith) (sub_pos.2 hsep) hε
    refine ⟨δ, hδ, fun mem alpha CL CD hC hA hne hD => ?_⟩
    obtain ⟨k1, k2⟩ := hk CL alpha hC hA
    unfold sectionCD at hD
    rw [abs_lt] at hA
    rw [if_neg (by linarith)] at hD
    split_ifs at hD with g1 g2
    · simp only [Option.some.injEq] at hD
      rw [← hD]
      convert k2 using 3
      ring
    · simp only [Option.some.injEq] at hD
      rw [← hD, h1]
      convert k1 using 3
      unfold polar
      ring
    · exfalso
      rcases lt_or_gt_of_ne hne with g | g
      · exact g2 ⟨g, by linarith⟩
      · exact g1 g
  · obtain ⟨δ, hδ, hw, hk⟩ := pieces_near (cP (af.CLa * s.dasNeg, s.dasNeg)) (cV s.B2n _) rfl (by simp only; linarith)
      (sub_pos.2 hsep) hε
    refine ⟨δ, hδ, fun mem alpha CL CD hC hA hne hD => ?_⟩
    obtain ⟨k1, k2⟩ := hk CL alpha hC hA
    unfold sectionCD at hD
    rw [abs_lt] at hA
    split_ifs at hD with g1 g2 g3
    · simp only [Option.some.injEq] at hD
      rw [← hD]
      convert k2 using 3
      rw [Real.sin_neg, Real.cos_neg]
      ring
    · exfalso; linarith
    · simp only [Option.some.injEq] at hD
      rw [← hD, h1]
      convert k1 using 3
      unfold polar
      ring
    · exfalso
      rcases lt_or_gt_of_ne hne with g | g
      · exact g1 g
      · exact g3 ⟨by linarith, g⟩

/-- **C106, lift near stall.** Nor does the lift jump at the stall angle of either side (if it is more than 2° before the delay is
added): close to it, the coefficient is close to that of the straight line. -/
theorem C106_smooth {q : PropGeom} {zeta r beta cb : ℝ} {af : BladeAf} {s : Stn} (h : mkStn q zeta r af beta cb = some s)
    {ε : ℝ} (hε : 0 < ε) :
    (0 < s.das → 2 * Real.pi / 180 < s.aStall → s.aStall < Real.pi → ∃ δ, 0 < δ ∧ ∀ mem alpha CL, |alpha - s.das| < δ →
      sectionCL s mem alpha = some CL → |CL - af.CLa * s.das| < ε) ∧
    (0 < s.aStallNeg + s.dA → 2 * Real.pi / 180 < s.aStallNeg → s.aStallNeg < Real.pi → ∃ δ, 0 < δ ∧ ∀ mem alpha CL,
      |alpha + (s.aStallNeg + s.dA)| < δ → sectionCL s mem alpha = some CL → |CL + af.CLa * (s.aStallNeg + s.dA)| < ε) := by
  obtain ⟨h1, h2, h3, h4, h5, h6, h7, h8, h9, hA, hAn, -, -⟩ := mkStn_facts h
  have key : ∀ A2 aSt CLm : ℝ, af.CLa * aSt = CLm → A2 * Real.cos aSt ^ 2 = (CLm - cdm * Real.sin aSt * Real.cos aSt) * Real.sin aSt →
      rad 2 < aSt → aSt < Real.pi → ∃ δ, 0 < δ ∧ ∀ x l, |x - aSt| < δ → liftSide af.CLa A2 aSt x = some l → |l - CLm| < ε := by
    intro A2 aSt CLm e hA2 h2r hpi
    have hrad : 0 < rad 2 := by unfold rad; positivity
    have hsin : Real.sin aSt ≠ 0 := (Real.sin_pos_of_pos_of_lt_pi (hrad.trans h2r) hpi).ne'
    let f : ℝ → ℝ := fun x => (1 - (Real.tanh (deg (x - aSt)) / 2 + 0.5)) * (af.CLa * x) + (Real.tanh (deg (x - aSt)) / 2 + 0.5) *
      (cdm / 2 * Real.sin (2 * x) + A2 * Real.cos x * Real.cos x / Real.sin x)
    have hc : ContinuousAt f aSt := by
      have htanh : Continuous fun x => Real.tanh (deg (x - aSt)) := by
        have : Continuous Real.tanh := by
          have e : Real.tanh = fun x => Real.sinh x / Real.cosh x := funext Real.tanh_eq_sinh_div_cosh
          rw [e]
          exact Real.continuous_sinh.div Real.continuous_cosh fun x => (Real.cosh_pos x).ne'
        refine this.comp ?_
        unfold deg
        fun_prop
      have h1 := htanh.continuousAt (x := aSt)
      have h2 : ContinuousAt (fun x => A2 * Real.cos x * Real.cos x / Real.sin x) aSt :=
        ContinuousAt.div (by fun_prop) Real.continuous_sin.continuousAt hsin
      exact ((continuousAt_const.sub ((h1.div_const 2).add continuousAt_const)).mul (by fun_prop)).add
        (((h1.div_const 2).add continuousAt_const).mul (ContinuousAt.add (by fun_prop) h2))
    have hf : f aSt = CLm := by
      simp only [f]
      rw [Real.sin_two_mul, show A2 * Real.cos aSt * Real.cos aSt = A2 * Real.cos aSt ^ 2 by ring, hA2, mul_div_cancel_right₀ _ hsin, e]
      ring
    obtain ⟨d, hd, hk⟩ := Metric.continuousAt_iff.1 hc ε hε
    refine ⟨min d (aSt - rad 2), lt_min hd (sub_pos.2 h2r), fun x l hx hl => ?_⟩
    have := hk (x := x) (by rw [Real.dist_eq]; exact hx.trans_le (min_le_left _ _))
    rw [Real.dist_eq, hf] at this
    have hx2 := hx.trans_le (min_le_right _ _)
    rw [abs_lt] at hx2
    unfold liftSide at hl
    simp only at hl
    rw [if_neg (by linarith)] at hl
    split_ifs at hl
    simp only [Option.some.injEq] at hl
    rw [← hl]
    exact this
  have hr2 : rad 2 = 2 * Real.pi / 180 := rfl
  constructor
  · intro hp h2r hpi
    obtain ⟨d, hd, hk⟩ := key s.A2 s.aStall af.CLm (by rw [h5]; field_simp) hA (hr2 ▸ h2r) hpi
    refine ⟨min d s.das, lt_min hd hp, fun mem alpha CL hx hl => ?_⟩
    have hx2 := hx.trans_le (min_le_right _ _)
    rw [abs_lt] at hx2
    unfold sectionCL at hl
    rw [if_pos (by linarith), h1] at hl
    obtain ⟨l, hl', rfl⟩ := Option.map_eq_some_iff.1 hl
    have := hk _ l (by rw [show alpha - s.dA - s.aStall = alpha - s.das by rw [h7]; ring]; exact hx.trans_le (min_le_left _ _)) hl'
    convert this using 2
    rw [h7, h5]
    field_simp
    ring
  · intro hp h2r hpi
    obtain ⟨d, hd, hk⟩ := key s.A2n s.aStallNeg (af.CLa * s.aStallNeg) rfl hAn (hr2 ▸ h2r) hpi
    refine ⟨min d (s.aStallNeg + s.dA), lt_min hd hp, fun mem alpha CL hx hl => ?_⟩
    have hx2 := hx.trans_le (min_le_right _ _)
    rw [abs_lt] at hx2
    unfold sectionCL at hl
    rw [if_neg (by linarith), if_pos (by linarith), h1] at hl
    obtain ⟨l, hl', rfl⟩ := Option.map_eq_some_iff.1 hl
    have := hk _ l (by
      rw [show -alpha - s.dA - s.aStallNeg = -(alpha + (s.aStallNeg + s.dA)) by ring, abs_neg]
      exact hx.trans_le (min_le_left _ _)) hl'
    rw [show -l - af.CLa * s.dA + af.CLa * (s.aStallNeg + s.dA) = -(l - af.CLa * s.aStallNeg) by ring, abs_neg]
    exact this

/-- **C106, the blade.** The sections of a propeller are such sections: the coefficients `get_coefficients_alpha` returns are theirs,
the slope is a central difference, and stall is delayed by Corrigan's factor, which depends on chord over radius alone. -/
theorem C106_sections {table : String → ℝ → ℝ} {q : PropGeom} {cg : V3} {units : Option String} {pts : Option (ι → V3)} {M : PropM ι}
    (hM : mkPropM table q cg units pts = .ok M) {alpha CL CLa CD : ℕ → ℝ} {st st' : PropSt}
    (h : coefficientsAlpha M alpha st = (.ok (CL, CLa, CD), st')) {i : ℕ} (hi : i < q.nodes) :
    (∃ zeta beta, mkStn q zeta (M.stn i).r (M.stn i).af beta (M.stn i).cb = some (M.stn i)) ∧
    (M.stn i).das = (M.stn i).af.CLm / (M.stn i).af.CLa *
      ((0.1517 / ((M.stn i).cb / (M.stn i).r)) ^ (1 / 1.084 : ℝ) * ((M.stn i).cb / (M.stn i).r) / 0.136) ∧
    (∃ m, sectionCL (M.stn i) m (alpha i) = some (CL i)) ∧ (∃ m, sectionCD (M.stn i) m (CL i) (alpha i) = some (CD i)) ∧
    ∃ m m' up dn, sectionCL (M.stn i) m (alpha i + 0.001) = some up ∧ sectionCL (M.stn i) m' (alpha i - 0.001) = some dn ∧
      CLa i = (up - dn) / 0.002 := by
  obtain ⟨-, -, hg, -, -, -, -, af, haf, hst⟩ := mkPropM_ok hM
  obtain ⟨beta, cb, -, -, hs⟩ := hst i hi
  obtain ⟨f1, f2, f3, -, f5, -, -, -, f9, -⟩ := mkStn_facts hs
  have hN : i < M.nodes := by unfold PropM.nodes; rw [hg]; exact hi
  unfold coefficientsAlpha at h
  obtain ⟨CL', s3, h3, h⟩ := bind_ok.1 h
  obtain ⟨CD', s4, h4, h⟩ := bind_ok.1 h
  obtain ⟨CLa', s5, h5, h⟩ := bind_ok.1 h
  unfold getCLa at h5
  obtain ⟨up, s6, h6, h5⟩ := bind_ok.1 h5
  obtain ⟨dn, s7, h7, h5⟩ := bind_ok.1 h5
  simp only [pure_run, Prod.mk.injEq, Except.ok.injEq] at h h5
  obtain ⟨⟨rfl, rfl, rfl⟩, -⟩ := h
  rw [getCL_run] at h3 h6 h7
  rw [getCD_run] at h4
  refine ⟨⟨_, beta, by rw [f1, f2, f3]; exact hs⟩, ?_, ⟨_, (allSome_eq_ok.1 h3).1 i hN⟩, ⟨_, (allSome_eq_ok.1 h4).1 i hN⟩, _, _, _, _,
    (allSome_eq_ok.1 h6).1 i hN, (allSome_eq_ok.1 h7).1 i hN, ?_⟩
  · rw [f9, f5, f1, f2, f3]
  · rw [← h5.1]; norm_num; ring

/-- the hypotheses of C106 hold at the sections of the example -/
example : ∃ (M : PropM ℕ) (s : Stn) (zeta beta : ℝ), mkPropM (fun _ _ => 0) demoProp 0 none none = .ok M ∧ s = M.stn 0 ∧
    mkStn demoProp zeta s.r demoFoil.blade beta s.cb = some s ∧ 0 < s.das ∧ 2 * Real.pi / 180 < s.aStall ∧ s.aStall < Real.pi ∧
    Real.sin (demoFoil.blade.CLm / demoFoil.blade.CLa) ≠ 0 ∧ 0 < demoFoil.blade.CLm / demoFoil.blade.CLa ∧
    0 < s.aStallNeg + s.dA ∧ s.aStallNeg = s.aStall := by
  obtain ⟨M, hM, hn, hd, hs, -⟩ := demo_ok (ι := ℕ) (fun _ _ => 0) 0 none none
  obtain ⟨-, -, hg, -, -, -, -, af, haf, hst⟩ := mkPropM_ok hM
  obtain ⟨beta, cb, -, -, hstn⟩ := hst 0 (by norm_num [demoProp])
  obtain ⟨q1, -, q3, -, q5, q6, q7, q8, -, -, q11, q12⟩ := hs 0 (by norm_num)
  obtain ⟨f1, f2, f3, -, f5, f6, -⟩ := mkStn_facts hstn
  have e : af 0 = demoFoil.blade := by rw [← f1, q5]
  rw [e] at hstn f5 f6
  have h3 := Real.pi_gt_three
  have h4 := Real.pi_lt_d2
  norm_num at h4
  have hst : demoFoil.blade.CLm / demoFoil.blade.CLa = 0.2 := by simp only [demoFoil, Airfoil.blade]; norm_num
  have hneg : (M.stn 0).aStallNeg = (M.stn 0).aStall := by rw [f6, f5]; simp [demoFoil, Airfoil.blade]
  refine ⟨M, M.stn 0, _, beta, hM, rfl, by rw [f2, f3]; exact hstn, by rw [q11]; norm_num, ?_, ?_, ?_, by rw [hst]; norm_num, ?_, hneg⟩
  · rw [q7]; norm_num; linarith
  · rw [q7]; norm_num; linarith
  · rw [hst]
    exact (Real.sin_pos_of_pos_of_lt_pi (by norm_num) (by norm_num; linarith)).ne'
  · rw [hneg, q7, q6]; norm_num

/-! ### C107 -/

/-- **C107, the part that holds.** Where neither side has stalled, a section without camber whose drag polar is even has the same drag
at opposite angles of attack and lift coefficients. -/
theorem C107_even_partial {q : PropGeom} {zeta r beta cb : ℝ} {af : BladeAf} {s : Stn} (h : mkStn q zeta r af beta cb = some s)
    (h1 : af.CDL = 0) (mem mem' : Option ℝ) {a : ℝ} (CL : ℝ) (ha : |a| < s.das) (ha' : |a| < -s.dasNeg) :
    sectionCD s mem' (-CL) (-a) = sectionCD s mem CL a ∧ sectionCD s mem CL a = some (polar af CL) := by
  obtain ⟨f1, -⟩ := mkStn_facts h
  rw [abs_lt] at ha ha'
  unfold sectionCD
  rw [if_neg (by linarith), if_neg (by linarith), if_pos ⟨by linarith, by linarith⟩, if_neg (by linarith), if_neg (by linarith),
    if_pos ⟨by linarith, by linarith⟩, f1, h1]
  unfold polar
  rw [h1]
  constructor
  · congr 1; ring
  · congr 1; ring

theorem sin_near {y lo hi : ℝ} (h1 : lo < y) (h2 : y < hi) (h0 : 0 < lo) (h3 : hi ≤ 1) : lo - hi ^ 3 / 6 < Real.sin y ∧ Real.sin y < hi := by
  have g1 := Real.sin_gt_sub_cube (x := y) (by linarith)
  have g2 := Real.sin_lt (x := y) (by linarith)
  have g3 : y ^ 3 < hi ^ 3 := pow_lt_pow_left₀ h2 (by linarith) (by norm_num)
  exact ⟨by linarith, by linarith⟩

theorem cos_near {y hi : ℝ} (h1 : 0 < y) (h2 : y < hi) : 1 - hi ^ 2 / 2 < Real.cos y := by
  have g1 : 1 - y ^ 2 / 2 ≤ Real.cos y := Real.one_sub_sq_div_two_le_cos
  have g3 : y ^ 2 < hi ^ 2 := pow_lt_pow_left₀ h2 h1.le (by norm_num)
  linarith

/-- the constant of the post-stall lift of the example -/
theorem demo_A2 {A2 : ℝ} (h : A2 * Real.cos 0.2 ^ 2 = (1.2 - 1.29 * Real.sin 0.2 * Real.cos 0.2) * Real.sin 0.2) :
    0 ≤ A2 ∧ A2 ≤ 0.25 := by
  obtain ⟨s1, s2⟩ := sin_near (y := 0.2) (lo := 0.199) (hi := 0.201) (by norm_num) (by norm_num) (by norm_num) (by norm_num)
  have c1 := cos_near (y := 0.2) (hi := 0.201) (by norm_num) (by norm_num)
  have c2 := Real.cos_le_one 0.2
  generalize Real.cos 0.2 = c at *
  generalize Real.sin 0.2 = w at *
  norm_num at s1 s2 c1
  have hw : 0 < w := by linarith
  have hc : 0 < c := by linarith
  have hc2 : 24 / 25 < c ^ 2 := by nlinarith
  have hwc : w * c ≤ 201 / 1000 := by nlinarith
  have hwc0 : 0 < w * c := mul_pos hw hc
  have e : A2 = (1.2 - 1.29 * (w * c)) * w / c ^ 2 := by
    rw [eq_div_iff (by positivity), h]; ring
  have hf : 0 ≤ 1.2 - 1.29 * (w * c) := by norm_num; linarith
  constructor
  · rw [e]; positivity
  · rw [e, div_le_iff₀ (by positivity)]
    have : (1.2 - 1.29 * (w * c)) * w ≤ (1.2 - 1.29 * (0.18)) * w := by
      refine mul_le_mul_of_nonneg_right ?_ hw.le
      have : 0.18 ≤ w * c := by norm_num; nlinarith
      linarith
    norm_num at this ⊢
    linarith

/-- the lift of the example just below stall -/
theorem demo_lift {A2 x t dA : ℝ} (hA : 0 ≤ A2 ∧ A2 ≤ 0.25) (hx : 0.196 < x ∧ x < 0.197) (ht : 0 < t ∧ t < 1) (hd : 0 ≤ dA ∧ dA < 0.0231) :
    |(1 - t) * (6 * x) + t * (1.29 / 2 * Real.sin (2 * x) + A2 * Real.cos x * Real.cos x / Real.sin x) + 6 * dA| < 1.72 := by
  obtain ⟨s1, s2⟩ := sin_near hx.1 hx.2 (by norm_num) (by norm_num)
  have c1 := cos_near (y := x) (by linarith [hx.1]) hx.2
  have c2 := Real.cos_le_one x
  rw [Real.sin_two_mul]
  generalize Real.cos x = c at *
  generalize Real.sin x = w at *
  obtain ⟨x1, x2⟩ := hx
  norm_num at s1 s2 c1 x1 x2
  have hw : 0 < w := by linarith
  have hc : 0 < c := by linarith
  set v := 1.29 / 2 * (2 * w * c) + A2 * c * c / w with hv
  have hA0 := hA.1
  have hv0 : 0 ≤ v := by rw [hv]; positivity
  have hv1 : v ≤ 1.571 := by
    have g1 : w * c ≤ 0.197 := by norm_num; nlinarith
    have g2 : A2 * c * c / w ≤ 0.25 / 0.19 := by
      refine div_le_div₀ (by norm_num) ?_ (by norm_num) (by norm_num; linarith)
      have : c * c ≤ 1 := by nlinarith
      calc A2 * c * c = A2 * (c * c) := by ring
        _ ≤ 0.25 * 1 := mul_le_mul hA.2 this (by positivity) (by norm_num)
        _ = 0.25 := by norm_num
    rw [hv]
    norm_num at g1 g2 ⊢
    linarith
  have g1 : (1 - t) * (6 * x) ≤ (1 - t) * 1.571 := mul_le_mul_of_nonneg_left (by norm_num; linarith) (by linarith [ht.2])
  have g2 : t * v ≤ t * 1.571 := mul_le_mul_of_nonneg_left hv1 ht.1.le
  have g3 : 0 ≤ (1 - t) * (6 * x) := mul_nonneg (by linarith [ht.2]) (by linarith)
  have g4 : 0 ≤ t * v := mul_nonneg ht.1.le hv0
  rw [abs_lt]
  obtain ⟨d1, d2⟩ := hd
  norm_num at d2 g1 g2 ⊢
  constructor <;> linarith

/-- the constant of the post-stall drag on the negative side of the example -/
theorem demo_B2n {B y : ℝ} (hy : 0.1769 < y ∧ y < 0.177) (h : B * Real.cos y = 0.01 + 0.36 * y ^ 2 - 1.29 * Real.sin y ^ 2) :
    -0.02 < B := by
  obtain ⟨s1, s2⟩ := sin_near hy.1 hy.2 (by norm_num) (by norm_num)
  have c1 := cos_near (y := y) (by linarith [hy.1]) hy.2
  have e1 : Real.sin y ^ 2 < 0.177 ^ 2 := pow_lt_pow_left₀ s2 (by norm_num at s1 ⊢; linarith) (by norm_num)
  have e3 : 0.1769 ^ 2 < y ^ 2 := pow_lt_pow_left₀ hy.1 (by norm_num) (by norm_num)
  by_contra hneg
  push Not at hneg
  have : B * Real.cos y ≤ -0.02 * Real.cos y := mul_le_mul_of_nonneg_right hneg (by norm_num at c1 ⊢; linarith)
  rw [h] at this
  norm_num at this e1 e3 c1
  linarith

/-- **C107 fails.** The blade sections of the example have no camber and an even drag polar, and lift is odd. At 0.22 rad the drag
differs from that at -0.22 rad: the negative side of the drag curve stalls earlier, because the stall delay is added to the
(negative) angle instead of subtracted. -/
theorem C107_refuted {table : String → ℝ → ℝ} {cg : V3} {units : Option String} {pts : Option (ι → V3)} {M : PropM ι}
    (hM : mkPropM table demoProp cg units pts = .ok M) :
    ∃ CL CD CD', (∀ mem, sectionCL (M.stn 0) mem 0.22 = some CL ∧ sectionCL (M.stn 0) mem (-0.22) = some (-CL) ∧
      sectionCD (M.stn 0) mem CL 0.22 = some CD ∧ sectionCD (M.stn 0) mem (-CL) (-0.22) = some CD') ∧ CD < CD' := by
  obtain ⟨M', hM', hn, hd, hs, -⟩ := demo_ok (ι := ι) table cg units pts
  rw [hM] at hM'; cases hM'
  obtain ⟨-, -, hg, -, -, -, -, af, haf, hst⟩ := mkPropM_ok hM
  obtain ⟨beta, cb, -, -, hstn⟩ := hst 0 (by norm_num [demoProp])
  obtain ⟨q1, -, q3, -, q5, q6, q7, q8, -, -, q11, q12⟩ := hs 0 (by norm_num)
  obtain ⟨f1, f2, f3, -, f5, f6, -, -, -, fA, -, -, fB⟩ := mkStn_facts hstn
  have e : af 0 = demoFoil.blade := by rw [← f1, q5]
  rw [e] at hstn f5 f6 fA fB
  generalize M.stn 0 = s at *
  clear hst hs hM hg hn hd haf
  have hCLa : s.af.CLa = 6 := by rw [q5]; rfl
  have hcd : cdm = 1.29 := by unfold cdm; norm_num
  have hodd := fun mem => C65_odd hstn (by rfl) mem (a := 0.22) (by norm_num)
  have hrad : rad 2 < 0.1 := by
    unfold rad
    have := Real.pi_lt_d2
    norm_num at this ⊢
    linarith
  have hA : 0 ≤ s.A2 ∧ s.A2 ≤ 0.25 := demo_A2 (by
    rw [q7, hcd] at fA
    exact fA)
  have hx : 0.196 < 0.22 - s.dA ∧ 0.22 - s.dA < 0.197 := by rw [q6]; norm_num
  have hdA : 0 ≤ s.dA ∧ s.dA < 0.0231 := by rw [q6]; norm_num
  obtain ⟨b1, b2, -⟩ := step_bounds (deg (0.22 - s.dA - s.aStall))
  have hbound := demo_lift hA hx ⟨b1, b2⟩ hdA
  have hsin : Real.sin (0.22 - s.dA) ≠ 0 := by
    have := (sin_near hx.1 hx.2 (by norm_num) (by norm_num)).1
    norm_num at this
    have : 0 < Real.sin (0.22 - s.dA) := by norm_num; linarith
    exact this.ne'
  have hCL : ∀ mem, sectionCL s mem 0.22 = some ((1 - (Real.tanh (deg (0.22 - s.dA - s.aStall)) / 2 + 0.5)) * (6 * (0.22 - s.dA)) +
      (Real.tanh (deg (0.22 - s.dA - s.aStall)) / 2 + 0.5) * (1.29 / 2 * Real.sin (2 * (0.22 - s.dA)) +
      s.A2 * Real.cos (0.22 - s.dA) * Real.cos (0.22 - s.dA) / Real.sin (0.22 - s.dA)) + 6 * s.dA) := by
    intro mem
    unfold sectionCL
    rw [if_pos (by norm_num)]
    unfold liftSide
    simp only
    rw [if_neg (by linarith [hx.1]), if_neg hsin, hCLa, hcd]
    rfl
  generalize (1 - (Real.tanh (deg (0.22 - s.dA - s.aStall)) / 2 + 0.5)) * (6 * (0.22 - s.dA)) +
      (Real.tanh (deg (0.22 - s.dA - s.aStall)) / 2 + 0.5) * (1.29 / 2 * Real.sin (2 * (0.22 - s.dA)) +
      s.A2 * Real.cos (0.22 - s.dA) * Real.cos (0.22 - s.dA) / Real.sin (0.22 - s.dA)) + 6 * s.dA = CL at *
  have h0 : demoFoil.blade.CD0 = 0.01 := rfl
  have h1 : demoFoil.blade.CDL = 0 := rfl
  have h2 : demoFoil.blade.CDL2 = 0.01 := rfl
  have h3 : demoFoil.blade.CLa = 6 := rfl
  refine ⟨CL, polar demoFoil.blade CL, cdm * Real.sin 0.22 ^ 2 + s.B2n * Real.cos 0.22, fun mem => ⟨hCL mem, ?_, ?_, ?_⟩, ?_⟩
  · rw [hodd, hCL]; rfl
  · unfold sectionCD
    rw [q11, q12, if_neg (by norm_num), if_neg (by norm_num), if_pos (by norm_num), q5]
    unfold polar
    congr 1; ring
  · unfold sectionCD
    rw [q12, if_pos (by norm_num), neg_neg]
  · have hp : polar demoFoil.blade CL < 0.0396 := by
      unfold polar
      rw [h0, h1, h2]
      have : CL ^ 2 < 1.72 ^ 2 := by rw [← sq_abs]; exact pow_lt_pow_left₀ hbound (abs_nonneg _) (by norm_num)
      norm_num at this ⊢
      linarith
    have hB2 : -0.02 < s.B2n := by
      refine demo_B2n (y := -s.dasNeg) (by rw [q12]; norm_num) ?_
      rw [Real.cos_neg, Real.sin_neg, neg_sq, neg_sq, fB, hcd, h3]
      unfold polar
      rw [h0, h1, h2]
      ring
    obtain ⟨s1, s2⟩ := sin_near (y := 0.22) (lo := 0.2199) (hi := 0.2201) (by norm_num) (by norm_num) (by norm_num) (by norm_num)
    have s1' : 0.218 ^ 2 < Real.sin 0.22 ^ 2 := pow_lt_pow_left₀ (by norm_num at s1 ⊢; linarith) (by norm_num) (by norm_num)
    have c1 := cos_near (y := 0.22) (hi := 0.2201) (by norm_num) (by norm_num)
    have c2 := Real.cos_le_one (0.22 : ℝ)
    have : -0.02 * Real.cos 0.22 ≤ s.B2n * Real.cos 0.22 := mul_le_mul_of_nonneg_right hB2.le (by norm_num at c1 ⊢; linarith)
    rw [hcd]
    norm_num at s1' this hp c2 ⊢
    linarith

/-- the propeller of the theorem exists, and its sections are below stall around zero -/
example : ∃ M : PropM ℕ, mkPropM (fun _ _ => 0) demoProp 0 none none = .ok M ∧ (M.stn 0).af.CDL = 0 ∧ (0.1 : ℝ) < (M.stn 0).das ∧
    (0.1 : ℝ) < -(M.stn 0).dasNeg := by
  obtain ⟨M, hM, -, -, hs, -⟩ := demo_ok (ι := ℕ) (fun _ _ => 0) 0 none none
  obtain ⟨-, -, -, -, q5, -, -, -, -, -, q11, q12⟩ := hs 0 (by norm_num)
  refine ⟨M, hM, by rw [q5]; rfl, by rw [q11]; norm_num, by rw [q12]; norm_num⟩

end Verif
