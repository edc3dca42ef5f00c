import Verif.Lemmas.LLApi
import Verif.Spec.LLEquation

/-! Helper lemmas: what a successful solve means, wind axes, freestream. -/

set_option linter.unusedSectionVars false

namespace Verif
open V3

variable {ι : Type*} [Fintype ι] [DecidableEq ι]

theorem solveLinear_ok {cg : V3} {S : ι → Section} {F : Flow ι} {C : Ctrl ι} {R : Sol ι}
    (h : solveLinear cg S F C = .ok R) :
    InfluenceDefined S F.u ∧ RhsDefined S F ∧ (aMat S F).det ≠ 0 ∧ PostDefined F (vInd S F R.gamma) ∧
      (aMat S F).mulVec R.gamma = bVec S F C ∧ R = solOf cg S F C R.gamma := by
  unfold solveLinear at h
  split at h
  · cases h
  · rename_i hd
    split at h
    · cases h
    · rename_i h0
      simp only at h
      split at h
      · cases h
      · rename_i hp
        rw [Except.ok.injEq] at h
        have hg : R.gamma = (aMat S F)⁻¹.mulVec (bVec S F C) := by rw [← h]; rfl
        refine ⟨(not_not.mp hd).1, (not_not.mp hd).2, h0, ?_, ?_, ?_⟩
        · rw [hg]; exact not_not.mp hp
        · rw [hg, Matrix.mulVec_mulVec, Matrix.mul_nonsing_inv _ (isUnit_iff_ne_zero.mpr h0), Matrix.one_mulVec]
        · rw [hg]; exact h.symm

/-- A successful solve: the object holds the arrays that were used. -/
theorem llSolve_ok {G : LLGeom ι} {st st' : LLState ι} {stype : String} {a : Option (AeroDict ι)}
    {c : Option CtrlDict} {R : Sol ι} (h : llSolve G st stype a c = (.ok R, st')) :
    ∃ v u, st'.v = some v ∧ st'.u = some u ∧ solveLinear G.cg G.S ⟨v, u, st'.rho⟩ st'.ctrl = .ok R ∧
      st'.results = some R ∧ stype = "linear" := by
  unfold llSolve at h
  split at h
  · simp at h
  · rename_i st1 h1
    simp only at h
    split at h
    · rename_i hs
      split at h
      · rename_i R0 hr
        simp only [Prod.mk.injEq, Except.ok.injEq] at h
        obtain ⟨rfl, rfl⟩ := h
        unfold runLinear at hr
        split at hr
        · rename_i v u hv hu
          refine ⟨v, u, hv, hu, ?_, rfl, hs⟩
          split at hr
          · rename_i R1 hR
            cases hr
            exact hR
          · simp at hr
        · simp at hr
      · simp at h
      · simp at h
    · simp at h

/-- After a solve with an explicit aero state the object holds the arrays that this state determines, also when the
solve fails in the linear system or for an unsupported type. -/
theorem llSolve_state (G : LLGeom ι) (st : LLState ι) (stype : String) (d : AeroDict ι)
    (c : Option CtrlDict) (hd : d.truthy = true) (a : Arr ι) (ha : arrOf G d = .ok a) :
    (llSolve G st stype (some d) c).2.v = a.v ∧ (llSolve G st stype (some d) c).2.u = a.u ∧
      (llSolve G st stype (some d) c).2.rho = a.rho := by
  have key := processAero_explicit G st d hd
  rw [ha] at key
  obtain ⟨rt, key⟩ := key
  have h := processCtrl_v G { st with v := a.v, u := a.u, rho := a.rho, rates := rt } c
  unfold llSolve
  rw [key]
  simp only
  split
  · split <;> exact h
  · exact h

theorem llSolve_ctrl (G : LLGeom ι) (st : LLState ι) (stype : String) (d : AeroDict ι)
    (c : CtrlDict) (hd : d.truthy = true) (hc : c.truthy = true) (a : Arr ι) (ha : arrOf G d = .ok a) :
    (llSolve G st stype (some d) (some c)).2.ctrl = ctrlOf G c := by
  have key := processAero_explicit G st d hd
  rw [ha] at key
  obtain ⟨rt, key⟩ := key
  unfold llSolve
  rw [key]
  simp only [processCtrl_explicit _ _ _ hc]
  split
  · split <;> rfl
  · rfl

/-- With an explicit aero state the object holds the arrays that this state determines. -/
theorem llSolve_arr {G : LLGeom ι} {st st' : LLState ι} {stype : String} {d : AeroDict ι}
    {c : Option CtrlDict} {R : Sol ι} (hd : d.truthy = true) (h : llSolve G st stype (some d) c = (.ok R, st')) :
    ∃ a, arrOf G d = .ok a ∧ st'.v = a.v ∧ st'.u = a.u ∧ st'.rho = a.rho := by
  have key := processAero_explicit G st d hd
  unfold llSolve at h
  cases ha : arrOf G d with
  | error e =>
    rw [ha] at key
    simp only at key
    rw [key] at h
    simp at h
  | ok a =>
    rw [ha] at key
    obtain ⟨rt, key⟩ := key
    rw [key] at h
    simp only at h
    obtain ⟨h1, h2, h3⟩ := processCtrl_v G { st with v := a.v, u := a.u, rho := a.rho, rates := rt } c
    split at h
    · split at h
      · simp only [Prod.mk.injEq] at h
        exact ⟨a, rfl, by rw [← h.2]; exact h1, by rw [← h.2]; exact h2, by rw [← h.2]; exact h3⟩
      · simp at h
      · simp at h
    · simp at h

/-- With an explicit aero state the wind direction held by the object is a unit vector. -/
theorem llSolve_unit {G : LLGeom ι} {st st' : LLState ι} {stype : String} {d : AeroDict ι}
    {c : Option CtrlDict} {R : Sol ι} (hd : d.truthy = true) (h : llSolve G st stype (some d) c = (.ok R, st'))
    {u : V3} (hu : st'.u = some u) : nrm u = 1 := by
  have norm_unit : ∀ {w : V3}, normalise w = some u → nrm u = 1 := by
    intro w hw
    unfold normalise at hw
    split at hw
    · cases hw
    · rename_i h0
      have hw := Option.some.inj hw
      rw [← hw, unit, nrm_smul, abs_of_nonneg (by have := nrm_nonneg w; positivity)]
      field_simp
  have hb : ∀ {o : Option V3}, o.bind normalise = some u → nrm u = 1 := by
    intro o ho
    cases o with
    | none => cases ho
    | some w => exact norm_unit ho
  obtain ⟨a, ha, -, h2, -⟩ := llSolve_arr hd h
  rw [h2] at hu
  unfold arrOf at ha
  split at ha
  · simp only [Except.ok.injEq] at ha
    rw [← ha] at hu
    simp only at hu
    split at hu
    · exact hb hu
    · exact hb hu
  · split at ha
    · simp only [Except.ok.injEq] at ha
      rw [← ha] at hu
      exact hb hu
    · cases ha

theorem nrm_unit {a : V3} (h : nrm a ≠ 0) : nrm (unit a) = 1 := by
  rw [unit, nrm_smul, abs_of_nonneg (by have := nrm_nonneg a; positivity)]
  field_simp

theorem liftAxis_props {u : V3} (hu : nrm u = 1) (hw : WindAxesDefined u) :
    nrm (liftAxis u) = 1 ∧ dot (liftAxis u) u = 0 ∧ dot (liftAxis u) ey = 0 ∧ nrm (cross (liftAxis u) u) = 1 ∧
      sideAxis u = cross (liftAxis u) u := by
  have h1 : nrm (liftAxis u) = 1 := nrm_unit hw.1
  have h2 : dot (liftAxis u) u = 0 := by
    rw [liftAxis, unit, smul_dot, dot_comm, dot_cross_self, mul_zero]
  have h3 : dot (liftAxis u) ey = 0 := by
    rw [liftAxis, unit, smul_dot, dot_comm, dot_cross_self', mul_zero]
  have h4 : nrm (cross (liftAxis u) u) = 1 := by
    have := lagrange (liftAxis u) u
    rw [h2, ← nrm_mul_self (liftAxis u), ← nrm_mul_self u, h1, hu] at this
    rw [nrm, show dot (cross (liftAxis u) u) (cross (liftAxis u) u) = 1 by linarith, Real.sqrt_one]
  refine ⟨h1, h2, h3, h4, ?_⟩
  rw [sideAxis, unit, h4]
  simp

theorem rotateAero_eq {u : V3} (hu : nrm u = 1) (hw : WindAxesDefined u) (F : V3) :
    rotateAero u F = (dot F (liftAxis u), dot F u, dot F (cross (liftAxis u) u)) := by
  obtain ⟨h1, h2, h3, h4, h5⟩ := liftAxis_props hu hw
  simp only [rotateAero, h5, sub_dot, smul_dot, dot_cross_self, dot_cross_self', mul_zero, sub_zero]

/-- Parseval for three orthonormal axes `a, u, a × u` -/
theorem parseval {a u F : V3} (ha : nrm a = 1) (hu : nrm u = 1) (hau : dot a u = 0) :
    dot F a ^ 2 + dot F u ^ 2 + dot F (cross a u) ^ 2 = dot F F := by
  have ha' : dot a a = 1 := by rw [← nrm_mul_self, ha, one_mul]
  have hu' : dot u u = 1 := by rw [← nrm_mul_self, hu, one_mul]
  have : dot F F * (dot a a * dot u u - dot a u ^ 2) = dot F F * dot a a * dot u u - dot F F * dot a u ^ 2 := by ring
  -- Gram determinant identity
  have gram : dot F (cross a u) ^ 2 =
      dot F F * (dot a a * dot u u - dot a u * dot a u) - dot F a * (dot F a * dot u u - dot a u * dot F u)
        + dot F u * (dot F a * dot a u - dot a a * dot F u) := by
    simp only [dot, cross_x, cross_y, cross_z]; ring
  rw [gram, ha', hu', hau]; ring

theorem sum_cross (c : V3) (f : ι → V3) : ∑ i, cross c (f i) = cross c (∑ i, f i) := by
  ext <;> simp [sum_x, sum_y, sum_z, Finset.mul_sum]

theorem sum_dot (f : ι → V3) (c : V3) : dot (∑ i, f i) c = ∑ i, dot (f i) c := by
  simp [dot, sum_x, sum_y, sum_z, Finset.sum_mul, Finset.sum_add_distrib]

end Verif
