import Verif.Thm.StraightWing

/-!
# Straight wings of rotating aircraft (C128)
-/

namespace Verif
open V3

/-- a line of sections in air that meets them at different velocities -/
theorem OnLine.solve_turning {ι : Type*} [Fintype ι] [DecidableEq ι] {S : ι → Section} {u : V3} {x z : ℝ} {y a b : ι → ℝ}
    (h : OnLine S u x z y a b) {F : Flow ι} (hu : F.u = u) (h1 : ∀ i, 0 < dot (F.v i) u) (h2 : ∀ i, dot (F.v i) (S i).ua ≠ 0) (cg : V3)
    (C : Ctrl ι) : ∃ γ, solveLinear cg S F C = .ok (solOf cg S F C γ) := by
  have hv0 : ∀ i, F.v i ≠ 0 := fun i h0 => by
    have := h1 i
    rw [h0] at this
    simp [dot] at this
  have hdet := (h.rowM hu h2).1.det_ne_zero
  refine ⟨(aMat S F)⁻¹.mulVec (bVec S F C), ?_⟩
  have hpost : PostDefined F (Verif.vInd S F ((aMat S F)⁻¹.mulVec (bVec S F C))) := by
    refine ⟨fun i h0 => ?_, hu ▸ h.wind⟩
    rw [nrm_eq_zero, h.vInd hu] at h0
    have := congrArg (dot u) h0
    rw [dot_sub, dot_smul, dot_cross_self, dot_comm] at this
    simp [dot] at this
    have := h1 i
    simp only [dot] at this
    linarith
  unfold solveLinear
  rw [if_neg (not_not.2 ⟨hu ▸ h.influence, h2⟩), if_neg hdet]
  simp only
  rw [if_neg (not_not.2 hpost)]

/-- **C128** (rotating aircraft). A straight wing in any flight condition with rotation: if the wind comes from the front, and at every section the
air, as seen from the rotating aircraft, still has a component in the direction of the wind and does not arrive at right angles to the chord, `solve`
returns loads. -/
theorem C128_turning {nm : String} {pos : Option V3} {ops : List PlaneOp} {co : Bool} {g : Grid} (hs : StraightWing (built nm pos ops))
    (hg : mkGrid (built nm pos ops) co = .ok g) (cg : V3) {d : AeroDict (Fin g.data.length)} {V r α β : ℝ}
    (hV : d.Vmag = some V) (hr : d.rho = some r) (ha : d.alpha.getD 0 = α) (hb : d.beta.getD 0 = β) (hl : d.localState = none) (hV0 : 0 < V)
    (hf : FromFront (built nm pos ops) α β)
    (ht : ∀ w, IsWind V α β w → ∀ i, let v := w - cross ⟨d.roll.getD 0, d.pitch.getD 0, d.yaw.getD 0⟩ ((g.data.get i).rcp - cg)
      0 < dot v w ∧ dot v (g.data.get i).ua ≠ 0)
    (st : LLState (Fin g.data.length)) (c : Option CtrlDict) :
    ∃ R, (llSolve (g.geom cg) st "linear" (some d) c).1 = .ok R := by
  obtain ⟨w, u, x, z, hw, h⟩ := straight_flow (built_inv nm pos ops) hs hg cg (d := { Vmag := some V, rho := some r, alpha := some α, beta := some β })
    (V := V) (r := r) (α := α) (β := β) ⟨rfl, rfl, rfl, rfl, rfl, rfl, rfl, rfl⟩ hV0 hf
  have ht := ht w (isWind_of hw)
  have hpos : ∀ v : V3, 0 < dot v w → 0 < dot v u := fun v hv => by
    rw [h.wind, dot_smul] at hv
    exact (mul_pos_iff_of_pos_left hV0).1 hv
  have hww : 0 < dot w w := by
    rw [← nrm_mul_self, h.nrm_w hV0]; positivity
  have hun : normalise w = some u := by
    have hn := h.nrm_w hV0
    unfold normalise
    rw [if_neg (by rw [hn]; exact hV0.ne'), Verif.unit, hn]
    conv_lhs => rw [h.wind, smul_smul, one_div_mul_cancel hV0.ne', one_smul]
  obtain ⟨v, hv, h1, h2⟩ : ∃ v : Fin g.data.length → V3, rotArr (g.geom cg) d (some fun _ => w) = some v ∧ (∀ i, 0 < dot (v i) u) ∧
      ∀ i, dot (v i) ((g.geom cg).S i).ua ≠ 0 := by
    unfold rotArr
    split
    · exact ⟨_, rfl, fun i => hpos _ (ht i).1, fun i => (ht i).2⟩
    · refine ⟨_, rfl, fun i => hpos _ hww, fun i => ?_⟩
      rw [h.wind, smul_dot]
      exact (mul_pos hV0 (h.line.front i)).ne'
  have harr : arrOf (g.geom cg) d = .ok ⟨some v, some u, fun _ => r⟩ := by
    unfold arrOf
    rw [hl, hV, hr]
    simp only [ha, hb, hw, Option.map_some, Option.bind_some, hun, hv]
  obtain ⟨γ, hγ⟩ := h.line.solve_turning (F := ⟨v, u, fun _ => r⟩) rfl h1 h2 cg (processCtrl (g.geom cg) st c).ctrl
  rw [llSolve_aero _ _ _ _ (by simp [AeroDict.truthy, hV]), harr]
  simp only [kern]
  rw [show (g.geom cg).cg = cg from rfl, hγ]
  exact ⟨_, rfl⟩

end Verif
