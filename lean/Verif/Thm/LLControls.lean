import Verif.Spec.ControlLine
import Verif.Thm.LLConditions

/-!
# Control deflections superpose (C113)
-/

namespace Verif
open V3

variable {ι : Type} [Fintype ι] [DecidableEq ι]

theorem moved_truthy (c c' : CtrlDict) (t : ℝ) : (c.moved c' t).truthy = true := by simp [CtrlDict.truthy, CtrlDict.moved]

theorem moved_deflects (c c' : CtrlDict) (t : ℝ) (s : Section) : (c.moved c' t).deflects s = c.deflects s + t * c'.deflects s := by
  simp only [CtrlDict.deflects, CtrlDict.moved, Option.getD_some]; ring

/-- right-hand side of the lifting-line equation for fully effective surfaces deflected by `δ` degrees -/
noncomputable def rhsAt (S : ι → Section) (F : Flow ι) (δ : ι → ℝ) (i : ι) : ℝ :=
  bVec S F ⟨fun i => δ i * (Real.pi / 180), fun _ => 1⟩ i

omit [Fintype ι] [DecidableEq ι] in
theorem rhsAt_line (S : ι → Section) (F : Flow ι) (δ δ' : ι → ℝ) (t : ℝ) :
    rhsAt S F (fun i => δ i + t * δ' i) = rhsAt S F δ + t • (rhsAt S F δ' - rhsAt S F 0) := by
  funext i
  simp only [rhsAt, bVec, clRhs, effFlap, lerp, Pi.add_apply, Pi.smul_apply, Pi.sub_apply, Pi.zero_apply, smul_eq_mul]
  ring

theorem bVec_small {G : LLGeom ι} {F : Flow ι} {c : CtrlDict} (h : ∀ i, |c.deflects (G.S i)| ≤ 11) :
    bVec G.S F (ctrlOf G c) = rhsAt G.S F (fun i => c.deflects (G.S i)) := by
  funext i
  obtain ⟨h1, h2, -⟩ := controlsOf G c i
  simp only [rhsAt, bVec, clRhs, effFlap, h1, h2 (h i)]

theorem vInd_line (S : ι → Section) (F : Flow ι) (g0 g1 : ι → ℝ) (t : ℝ) (i : ι) :
    vInd S F (g0 + t • g1) i = vInd S F g0 i + t • ∑ j, g1 j • vji S F.u i j := by
  unfold vInd
  rw [Finset.smul_sum, add_assoc, ← Finset.sum_add_distrib]
  congr 1
  refine Finset.sum_congr rfl fun j _ => ?_
  simp only [Pi.add_apply, Pi.smul_apply, smul_eq_mul]
  rw [add_smul, mul_smul]

/-- the force on a section is a quadratic polynomial of the vortex strengths -/
theorem force_line (S : ι → Section) (F : Flow ι) (g0 g1 : ι → ℝ) (t : ℝ) (i : ι) :
    secForce S F (g0 + t • g1) (vInd S F (g0 + t • g1)) i =
      (F.rho i * g0 i) • cross (vInd S F g0 i) (dl (S i)) +
        t • ((F.rho i * g1 i) • cross (vInd S F g0 i) (dl (S i)) +
          (F.rho i * g0 i) • cross (∑ j, g1 j • vji S F.u i j) (dl (S i))) +
        t ^ 2 • ((F.rho i * g1 i) • cross (∑ j, g1 j • vji S F.u i j) (dl (S i))) := by
  unfold secForce
  rw [vInd_line]
  ext <;> simp <;> ring

/-- the moment on a section with fixed pitching moment slope zero is a quadratic polynomial, too -/
theorem moment_line (cg : V3) (S : ι → Section) (F : Flow ι) (C : Ctrl ι) (g0 g1 δ δ' : ι → ℝ) (t : ℝ) (i : ι)
    (hC : C.delta i = (δ i + t * δ' i) * (Real.pi / 180)) (h1 : (S i).left.cma = 0) (h2 : (S i).right.cma = 0) :
    secMoment cg S F C (g0 + t • g1) (vInd S F (g0 + t • g1)) i =
      ((-(dynP F i) * (lerp (S i).sp (S i).left.cml0 (S i).right.cml0 + δ i * (Real.pi / 180) * (S i).cmd) * (S i).ic2) • (S i).us +
        cross ((S i).rcp - cg) ((F.rho i * g0 i) • cross (vInd S F g0 i) (dl (S i)))) +
        t • ((-(dynP F i) * (δ' i * (Real.pi / 180) * (S i).cmd) * (S i).ic2) • (S i).us +
          cross ((S i).rcp - cg) ((F.rho i * g1 i) • cross (vInd S F g0 i) (dl (S i)) +
            (F.rho i * g0 i) • cross (∑ j, g1 j • vji S F.u i j) (dl (S i)))) +
        t ^ 2 • cross ((S i).rcp - cg) ((F.rho i * g1 i) • cross (∑ j, g1 j • vji S F.u i j) (dl (S i))) := by
  unfold secMoment
  rw [force_line]
  simp only [secCm, h1, h2, zero_mul, add_zero, hC, lerp]
  ext <;> simp <;> ring

omit [DecidableEq ι] in
theorem sum_line (f0 f1 f2 : ι → V3) (t : ℝ) :
    ∑ i, (f0 i + t • f1 i + t ^ 2 • f2 i) = (∑ i, f0 i) + t • (∑ i, f1 i) + t ^ 2 • ∑ i, f2 i := by
  rw [Finset.sum_add_distrib, Finset.sum_add_distrib, Finset.smul_sum, Finset.smul_sum]

theorem loads_line (u Q0 Q1 Q2 M0 M1 M2 M : V3) (t : ℝ) :
    let l := mkLoads u (Q0 + t • Q1 + t ^ 2 • Q2) M
    let q0 := mkLoads u Q0 M0
    let q1 := mkLoads u Q1 M1
    let q2 := mkLoads u Q2 M2
    AtQuad q0.FL q1.FL q2.FL t l.FL ∧ AtQuad q0.FD q1.FD q2.FD t l.FD ∧ AtQuad q0.FS q1.FS q2.FS t l.FS ∧
    AtQuad q0.FX q1.FX q2.FX t l.FX ∧ AtQuad q0.FY q1.FY q2.FY t l.FY ∧ AtQuad q0.FZ q1.FZ q2.FZ t l.FZ ∧
    (M = M0 + t • M1 + t ^ 2 • M2 →
      AtQuad q0.MX q1.MX q2.MX t l.MX ∧ AtQuad q0.MY q1.MY q2.MY t l.MY ∧ AtQuad q0.MZ q1.MZ q2.MZ t l.MZ) := by
  simp only [mkLoads, rotateAero, dot, AtQuad, add_x, add_y, add_z, smul_x, smul_y, smul_z, sub_x, sub_y, sub_z]
  refine ⟨?_, ?_, ?_, ?_, ?_, ?_, ?_⟩
  · ring
  · ring
  · ring
  · ring
  · ring
  · ring
  · rintro rfl
    refine ⟨?_, ?_, ?_⟩ <;> simp <;> ring

theorem linear_of_ok {G : LLGeom ι} {st st' : LLState ι} {stype : String} {a : Option (AeroDict ι)} {c : Option CtrlDict} {R : Sol ι}
    (h : llSolve G st stype a c = (.ok R, st')) : stype = "linear" := by
  by_contra hs
  unfold llSolve at h
  rcases hq : processAero G st a with ⟨e | _, st1⟩
  · rw [hq] at h; cases h
  · rw [hq] at h
    simp only [if_neg hs] at h
    cases h

/-- **C113.** For a given flight condition, while no control surface of the aircraft is deflected by more than 11 degrees: when
controls are moved together by `t`, each inviscid force `solve` reports is a polynomial of degree two in `t`, and so is each
inviscid moment if the section moment coefficients do not depend on the angle of attack. -/
theorem C113_quadratic (G : LLGeom ι) (d : AeroDict ι) (hd : d.truthy = true) (c c' : CtrlDict) :
    ∃ q0 q1 q2 : Loads, ∀ t : ℝ, (∀ i, |(c.moved c' t).deflects (G.S i)| ≤ 11) →
      ∀ (st st' : LLState ι) (stype : String) (R : Sol ι), llSolve G st stype (some d) (some (c.moved c' t)) = (.ok R, st') →
        AtQuad q0.FL q1.FL q2.FL t R.inviscid.FL ∧ AtQuad q0.FD q1.FD q2.FD t R.inviscid.FD ∧
        AtQuad q0.FS q1.FS q2.FS t R.inviscid.FS ∧ AtQuad q0.FX q1.FX q2.FX t R.inviscid.FX ∧
        AtQuad q0.FY q1.FY q2.FY t R.inviscid.FY ∧ AtQuad q0.FZ q1.FZ q2.FZ t R.inviscid.FZ ∧
        ((∀ i, (G.S i).left.cma = 0 ∧ (G.S i).right.cma = 0) →
          AtQuad q0.MX q1.MX q2.MX t R.inviscid.MX ∧ AtQuad q0.MY q1.MY q2.MY t R.inviscid.MY ∧
          AtQuad q0.MZ q1.MZ q2.MZ t R.inviscid.MZ) := by
  have none_ok : (∀ (t : ℝ) (st st' : LLState ι) (stype : String) (R : Sol ι),
      llSolve G st stype (some d) (some (c.moved c' t)) ≠ (.ok R, st')) ∨
      ∃ a v u, arrOf G d = .ok a ∧ a.v = some v ∧ a.u = some u := by
    by_contra hno
    push Not at hno
    obtain ⟨⟨t, st, st', stype, R, h⟩, h2⟩ := hno
    obtain ⟨v, u, hv, hu, -⟩ := C32_lifting_line G st st' stype d _ R hd h
    obtain ⟨a, ha, k1, k2, -⟩ := llSolve_arr hd h
    exact h2 a v u ha (k1 ▸ hv) (k2 ▸ hu)
  rcases none_ok with h | ⟨a, v, u, ha, hv, hu⟩
  · exact ⟨mkLoads 0 0 0, mkLoads 0 0 0, mkLoads 0 0 0, fun t _ st st' stype R hR => absurd hR (h t st st' stype R)⟩
  set F : Flow ι := ⟨v, u, a.rho⟩ with hF
  set δ : ι → ℝ := fun i => c.deflects (G.S i) with hδ
  set δ' : ι → ℝ := fun i => c'.deflects (G.S i) with hδ'
  set g0 : ι → ℝ := (aMat G.S F)⁻¹.mulVec (rhsAt G.S F δ) with hg0
  set g1 : ι → ℝ := (aMat G.S F)⁻¹.mulVec (rhsAt G.S F δ' - rhsAt G.S F 0) with hg1
  let w1 : ι → V3 := fun i => ∑ j, g1 j • vji G.S u i j
  let f0 : ι → V3 := fun i => (F.rho i * g0 i) • cross (vInd G.S F g0 i) (dl (G.S i))
  let f1 : ι → V3 := fun i => (F.rho i * g1 i) • cross (vInd G.S F g0 i) (dl (G.S i)) + (F.rho i * g0 i) • cross (w1 i) (dl (G.S i))
  let f2 : ι → V3 := fun i => (F.rho i * g1 i) • cross (w1 i) (dl (G.S i))
  let m0 : ι → V3 := fun i => (-(dynP F i) * (lerp (G.S i).sp (G.S i).left.cml0 (G.S i).right.cml0 +
    δ i * (Real.pi / 180) * (G.S i).cmd) * (G.S i).ic2) • (G.S i).us + cross ((G.S i).rcp - G.cg) (f0 i)
  let m1 : ι → V3 := fun i => (-(dynP F i) * (δ' i * (Real.pi / 180) * (G.S i).cmd) * (G.S i).ic2) • (G.S i).us +
    cross ((G.S i).rcp - G.cg) (f1 i)
  let m2 : ι → V3 := fun i => cross ((G.S i).rcp - G.cg) (f2 i)
  refine ⟨mkLoads u (∑ i, f0 i) (∑ i, m0 i), mkLoads u (∑ i, f1 i) (∑ i, m1 i), mkLoads u (∑ i, f2 i) (∑ i, m2 i),
    fun t ht st st' stype R hR => ?_⟩
  obtain rfl := linear_of_ok hR
  have hk := llSolve_explicit G st d (c.moved c' t) hd (moved_truthy c c' t)
  rw [hR, ha] at hk
  simp only [kern, hv, hu] at hk
  rcases hq : solveLinear G.cg G.S F (ctrlOf G (c.moved c' t)) with e | R'
  · rw [hq] at hk; cases hk
  rw [hq] at hk
  obtain rfl := Except.ok.inj hk
  obtain ⟨-, -, hdet, -, hsys, hsol⟩ := solveLinear_ok hq
  have hg : R.gamma = g0 + t • g1 := by
    have e1 : R.gamma = (aMat G.S F)⁻¹.mulVec (bVec G.S F (ctrlOf G (c.moved c' t))) := by
      rw [← hsys, Matrix.mulVec_mulVec, Matrix.nonsing_inv_mul _ (isUnit_iff_ne_zero.mpr hdet), Matrix.one_mulVec]
    rw [e1, bVec_small ht]
    have e2 : (fun i => (c.moved c' t).deflects (G.S i)) = fun i => δ i + t * δ' i := by funext i; exact moved_deflects _ _ _ _
    rw [e2, rhsAt_line, Matrix.mulVec_add, Matrix.mulVec_smul]
  have hinv : R.inviscid = mkLoads u ((∑ i, f0 i) + t • (∑ i, f1 i) + t ^ 2 • ∑ i, f2 i)
      (∑ i, secMoment G.cg G.S F (ctrlOf G (c.moved c' t)) (g0 + t • g1) (vInd G.S F (g0 + t • g1)) i) := by
    rw [hsol, hg, ← sum_line]
    simp only [solOf]
    congr 1
    exact Finset.sum_congr rfl fun i _ => force_line G.S F g0 g1 t i
  rw [hinv]
  have key := loads_line u (∑ i, f0 i) (∑ i, f1 i) (∑ i, f2 i) (∑ i, m0 i) (∑ i, m1 i) (∑ i, m2 i)
    (∑ i, secMoment G.cg G.S F (ctrlOf G (c.moved c' t)) (g0 + t • g1) (vInd G.S F (g0 + t • g1)) i) t
  obtain ⟨k1, k2, k3, k4, k5, k6, k7⟩ := key
  refine ⟨k1, k2, k3, k4, k5, k6, fun hm => k7 ?_⟩
  rw [← sum_line]
  refine Finset.sum_congr rfl fun i _ => ?_
  refine moment_line G.cg G.S F _ g0 g1 δ δ' t i ?_ (hm i).1 (hm i).2
  rw [(controlsOf G (c.moved c' t) i).1, moved_deflects]

/-- **C113, derivatives.** While no control surface is deflected by more than 11 degrees, the central difference of an inviscid force
with respect to a control movement does not depend on the step. -/
theorem C113_step (G : LLGeom ι) (d : AeroDict ι) (hd : d.truthy = true) (c c' : CtrlDict) (t : ℝ) {h k : ℝ} (hh : h ≠ 0) (hk : k ≠ 0)
    (hs : ∀ x ∈ [t + h, t - h, t + k, t - k], ∀ i, |(c.moved c' x).deflects (G.S i)| ≤ 11)
    {s1 s2 s3 s4 s1' s2' s3' s4' : LLState ι} {R1 R2 R3 R4 : Sol ι}
    (e1 : llSolve G s1 "linear" (some d) (some (c.moved c' (t + h))) = (.ok R1, s1'))
    (e2 : llSolve G s2 "linear" (some d) (some (c.moved c' (t - h))) = (.ok R2, s2'))
    (e3 : llSolve G s3 "linear" (some d) (some (c.moved c' (t + k))) = (.ok R3, s3'))
    (e4 : llSolve G s4 "linear" (some d) (some (c.moved c' (t - k))) = (.ok R4, s4')) :
    (R1.inviscid.FL - R2.inviscid.FL) / (2 * h) = (R3.inviscid.FL - R4.inviscid.FL) / (2 * k) ∧
    (R1.inviscid.FD - R2.inviscid.FD) / (2 * h) = (R3.inviscid.FD - R4.inviscid.FD) / (2 * k) ∧
    (R1.inviscid.FS - R2.inviscid.FS) / (2 * h) = (R3.inviscid.FS - R4.inviscid.FS) / (2 * k) ∧
    (R1.inviscid.FX - R2.inviscid.FX) / (2 * h) = (R3.inviscid.FX - R4.inviscid.FX) / (2 * k) ∧
    (R1.inviscid.FY - R2.inviscid.FY) / (2 * h) = (R3.inviscid.FY - R4.inviscid.FY) / (2 * k) ∧
    (R1.inviscid.FZ - R2.inviscid.FZ) / (2 * h) = (R3.inviscid.FZ - R4.inviscid.FZ) / (2 * k) := by
  obtain ⟨q0, q1, q2, hq⟩ := C113_quadratic G d hd c c'
  have p1 := hq _ (hs _ (by simp)) _ _ _ _ e1
  have p2 := hq _ (hs _ (by simp)) _ _ _ _ e2
  have p3 := hq _ (hs _ (by simp)) _ _ _ _ e3
  have p4 := hq _ (hs _ (by simp)) _ _ _ _ e4
  obtain ⟨a1, a2, a3, a4, a5, a6, -⟩ := p1
  obtain ⟨b1, b2, b3, b4, b5, b6, -⟩ := p2
  obtain ⟨c1, c2, c3, c4, c5, c6, -⟩ := p3
  obtain ⟨d1, d2, d3, d4, d5, d6, -⟩ := p4
  unfold AtQuad at *
  refine ⟨?_, ?_, ?_, ?_, ?_, ?_⟩
  · rw [a1, b1, c1, d1]; field_simp; ring
  · rw [a2, b2, c2, d2]; field_simp; ring
  · rw [a3, b3, c3, d3]; field_simp; ring
  · rw [a4, b4, c4, d4]; field_simp; ring
  · rw [a5, b5, c5, d5]; field_simp; ring
  · rw [a6, b6, c6, d6]; field_simp; ring

/-! ### The hypotheses are met -/

/-- circulation of both sections of the example wing with the elevator at `t` degrees -/
noncomputable def elevGamma (t : ℝ) : ℝ := (30 + 300 * (t * (Real.pi / 180))) / (40 / Real.pi + 20)

/-- the example wing with the elevator at `t` degrees -/
theorem elev_solve (t : ℝ) (ht : |t| ≤ 11) (st : LLState (Fin 2)) :
    ∃ R, (llSolve exGeom st "linear" (some exAero) (some (exCtrl.moved { elevator := some 1 } t))).1 = .ok R ∧
      R.inviscid.FZ = -20 * elevGamma t := by
  set c := exCtrl.moved { elevator := some 1 } t with hc
  have hpi := Real.pi_pos
  have hdef : ∀ i, c.deflects (exGeom.S i) = t := by
    intro i
    rw [hc, moved_deflects]
    fin_cases i <;> simp [CtrlDict.deflects, exCtrl, exGeom, exSec]
  have hb : bVec exGeom.S exFlow (ctrlOf exGeom c) = fun _ => 30 + 300 * (t * (Real.pi / 180)) := by
    rw [bVec_small (fun i => by rw [hdef]; exact ht)]
    have h1 : nrm (⟨-10, 0, 0⟩ : V3) = 10 := by rw [nrm_x]; norm_num
    funext i
    have hv : exFlow.v i = ⟨-10, 0, 0⟩ := rfl
    simp only [rhsAt, bVec, clRhs, alphaLoc, effFlap, hv, h1, hdef]
    fin_cases i <;> simp [exGeom, exSec, exAf, dot, lerp] <;> ring
  have hg : (aMat exGeom.S exFlow)⁻¹.mulVec (bVec exGeom.S exFlow (ctrlOf exGeom c)) = fun _ => elevGamma t := by
    have h : (aMat exGeom.S exFlow).mulVec (fun _ => elevGamma t) = bVec exGeom.S exFlow (ctrlOf exGeom c) := by
      rw [ex_aMat, hb]
      have hne : 40 / Real.pi + 20 ≠ 0 := by positivity
      funext i
      fin_cases i <;> simp [Matrix.mulVec, dotProduct, Fin.sum_univ_two, elevGamma] <;> field_simp <;> ring
    rw [← h, Matrix.mulVec_mulVec, Matrix.nonsing_inv_mul _ (isUnit_iff_ne_zero.mpr ex_det), Matrix.one_mulVec]
  have hvi : ∀ i, vInd exGeom.S exFlow (fun _ => elevGamma t) i = ⟨-10, 0, elevGamma t * (2 / (3 * Real.pi))⟩ := by
    intro i
    have hpi := Real.pi_ne_zero
    have hv : exFlow.v i = ⟨-10, 0, 0⟩ := rfl
    simp only [vInd, ex_vji, hv, Fin.sum_univ_two]
    fin_cases i <;> ext <;> simp <;> field_simp <;> norm_num
  have hp : PostDefined exFlow (vInd exGeom.S exFlow (fun _ => elevGamma t)) := by
    refine ⟨fun i h => ?_, ex_wind⟩
    rw [hvi, nrm_eq_zero] at h
    have := congrArg V3.x h
    simp at this
  have hs : solveLinear exGeom.cg exGeom.S exFlow (ctrlOf exGeom c) =
      .ok (solOf exGeom.cg exGeom.S exFlow (ctrlOf exGeom c) fun _ => elevGamma t) := by
    unfold solveLinear
    rw [if_neg (not_not.mpr ex_defined), if_neg ex_det]
    have h := hp
    rw [← hg] at h
    simp only
    rw [if_neg (not_not.mpr h), hg]
  refine ⟨solOf exGeom.cg exGeom.S exFlow (ctrlOf exGeom c) fun _ => elevGamma t, ?_, ?_⟩
  · rw [llSolve_explicit _ _ _ _ exAero_truthy (moved_truthy _ _ _), ex_arr]
    have h : solveLinear exGeom.cg exGeom.S ⟨exFlow.v, exFlow.u, exFlow.rho⟩ (ctrlOf exGeom c) = _ := hs
    simp only [kern, ← hc, h]
  · simp only [solOf, mkLoads, Fin.sum_univ_two, secForce, hvi]
    simp [dl, exGeom, exSec, exFlow]
    ring

/-- C113 applies to the example wing with the elevator anywhere within 11 degrees, and the force changes with the elevator. -/
example (t : ℝ) (ht : |t| ≤ 11) : (∀ i, |(exCtrl.moved { elevator := some 1 } t).deflects (exGeom.S i)| ≤ 11) ∧
    (∃ R st', llSolve exGeom (LLState.init _) "linear" (some exAero) (some (exCtrl.moved { elevator := some 1 } t)) = (.ok R, st')) ∧
    (t ≠ 0 → elevGamma t ≠ elevGamma 0) := by
  refine ⟨fun i => ?_, ?_, fun h0 h => h0 ?_⟩
  · rw [moved_deflects]
    fin_cases i <;> simpa [CtrlDict.deflects, exCtrl, exGeom, exSec] using ht
  · obtain ⟨R, hR, -⟩ := elev_solve t ht (LLState.init _)
    exact ⟨R, _, Prod.ext hR rfl⟩
  · have hpi := Real.pi_pos
    unfold elevGamma at h
    have hne : 40 / Real.pi + 20 ≠ 0 := by positivity
    rw [div_left_inj' hne] at h
    have : t * (Real.pi / 180) = 0 := by linarith
    rcases mul_eq_zero.1 this with h | h
    · exact h
    · exact absurd h (by positivity)

end Verif
