import Verif.Lemmas.LLInputs
import Verif.Examples.LL

/-!
# Scaling, symmetry and invariance of lifting-line solutions (C24, C25, C26, C29, C30, C31)

Each theorem compares two calls of `LLModel.solve('linear', aero_state, control_state)`.  `Outcome P` says: either both
calls fail in the same way, or both succeed with results related by `P`.
-/

namespace Verif
open V3

variable {ι ι' : Type*} [Fintype ι] [DecidableEq ι] [Fintype ι'] [DecidableEq ι']

/-- **C24.** For every grid, every state of the model, every aero state and control argument: multiplying all
velocities and rotation rates by `k > 0` multiplies all forces and moments by `k²` and leaves section angles,
section coefficients and L/D unchanged. -/
theorem C24_speed_scaling (G : LLGeom ι) (st : LLState ι) (d : AeroDict ι) (c : Option CtrlDict) (k : ℝ) (hk : 0 < k)
    (hd : d.truthy = true) :
    Outcome (fun R R' => LoadsScaled (k ^ 2) (k ^ 2) R R' ∧ SameSections (Equiv.refl ι) R R' ∧ R'.LD = R.LD)
      (llSolve G st "linear" (some d) c).1
      (llSolve G st "linear" (some (d.scaleSpeed k)) c).1 := by
  let T := idSim 1 one_pos 0 k hk 1
  have h := llSolve_image T (Equiv.refl ι) (G := G) (G' := G) (d := d) (d' := d.scaleSpeed k) (c := c) (c' := c)
    (τ := 1) (by simp [T]) (by simp)
    (fun i => by constructor <;> simp [T]) (by simp [T]) hd (by rw [truthy_scaleSpeed, hd])
    (arrOf_image T (Equiv.refl ι) (by simp [AeroDict.hasRates, AeroDict.scaleSpeed])
      (fun i => by
        simp only [AeroDict.scaleSpeed, getD_map_mul, T, idSim_Q, idSim_spd, Equiv.refl_apply]
        ext <;> simp <;> ring)
      rfl
      (fun V => by simp [AeroDict.scaleSpeed, T])
      (fun _ => by simp [AeroDict.scaleSpeed, T])
      (by simp [AeroDict.scaleSpeed, T]))
    st st (ctrlRefl rfl)
  refine h.mono fun R R' _ _ hi => ⟨?_, hi.sameSections, ?_⟩
  · simpa [T] using hi.loadsScaled (fun a => by simp [T]) (by simp [T])
  · have := hi.LD (by simp [T])
    simpa [T] using this

-- the solve of the concrete wing `exGeom` succeeds with a non-zero force
example : exAero.truthy = true ∧
    ∃ R, (llSolve exGeom (LLState.init _) "linear" (some exAero) (some exCtrl)).1 = .ok R ∧ R.inviscid.FZ ≠ 0 :=
  ex_nontrivial

/-- **C25.** For every grid, model state, aero state and control argument: multiplying all densities by `k` multiplies
all forces and moments by `k` and leaves circulation, section angles and section coefficients (and, unless `k = 0`,
L/D) unchanged. -/
theorem C25_density_scaling (G : LLGeom ι) (st : LLState ι) (d : AeroDict ι) (c : Option CtrlDict) (k : ℝ)
    (hd : d.truthy = true) :
    Outcome (fun R R' => LoadsScaled k k R R' ∧ SameSections (Equiv.refl ι) R R' ∧ R'.gamma = R.gamma ∧
        (k ≠ 0 → R'.LD = R.LD))
      (llSolve G st "linear" (some d) c).1
      (llSolve G st "linear" (some (d.scaleDensity k)) c).1 := by
  let T := idSim 1 one_pos 0 1 one_pos k
  have h := llSolve_image T (Equiv.refl ι) (G := G) (G' := G) (d := d) (d' := d.scaleDensity k) (c := c) (c' := c)
    (τ := 1) (by simp [T]) (by simp)
    (fun i => by constructor <;> simp [T]) (by simp [T]) hd (by rw [truthy_scaleDensity, hd])
    (arrOf_image T (Equiv.refl ι) (by simp [AeroDict.hasRates, AeroDict.scaleDensity])
      (fun i => by simp [AeroDict.scaleDensity, T])
      (by simp [AeroDict.scaleDensity, T])
      (fun V => by simp [AeroDict.scaleDensity, T])
      (fun _ => by simp [AeroDict.scaleDensity, T])
      (by simp [AeroDict.scaleDensity, T]))
    st st (ctrlRefl rfl)
  refine h.mono fun R R' _ _ hi => ⟨?_, hi.sameSections, ?_, ?_⟩
  · simpa [T] using hi.loadsScaled (fun a => by simp [T]) (by simp [T])
  · funext i
    simpa [T] using hi.gamma i
  · intro hk
    have := hi.LD (by simpa [T] using hk)
    simpa [T] using this

-- the solve of the concrete wing `exGeom` succeeds with a non-zero force
example : exAero.truthy = true ∧
    ∃ R, (llSolve exGeom (LLState.init _) "linear" (some exAero) (some exCtrl)).1 = .ok R ∧ R.inviscid.FZ ≠ 0 :=
  ex_nontrivial

/-- **C30.** Translating all positions together with the CG changes nothing, also with rotation rates. -/
theorem C30_translation (G : LLGeom ι) (st : LLState ι) (d : AeroDict ι) (c : Option CtrlDict) (t : V3)
    (hd : d.truthy = true) :
    Outcome (fun R R' => LoadsScaled 1 1 R R' ∧ SameSections (Equiv.refl ι) R R' ∧ R'.gamma = R.gamma ∧ R'.LD = R.LD)
      (llSolve G st "linear" (some d) c).1
      (llSolve (G.translate t) st "linear" (some d) c).1 := by
  let T := idSim 1 one_pos t 1 one_pos 1
  have h := llSolve_image T (Equiv.refl ι) (G := G) (G' := G.translate t) (d := d) (d' := d) (c := c) (c' := c)
    (τ := 1) (by simp [T]) (by simp)
    (fun i => by constructor <;> simp [T, LLGeom.translate, Section.translate])
    (by simp [T, LLGeom.translate]) hd hd
    (arrOf_image T (Equiv.refl ι) rfl
      (fun i => by simp [T, LLGeom.translate, Section.translate])
      (by simp [T]) (fun V => by simp [T]) (fun _ => by simp [T]) (by simp [T]))
    st st (ctrlRefl (by unfold processCtrl; rfl))
  refine h.mono fun R R' _ _ hi => ⟨?_, hi.sameSections, ?_, ?_⟩
  · simpa [T] using hi.loadsScaled (fun a => by simp [T]) (by simp [T])
  · funext i
    simpa [T] using hi.gamma i
  · have := hi.LD (by simp [T])
    simpa [T] using this

-- the solve of the concrete wing `exGeom` succeeds with a non-zero force
example : exAero.truthy = true ∧
    ∃ R, (llSolve exGeom (LLState.init _) "linear" (some exAero) (some exCtrl)).1 = .ok R ∧ R.inviscid.FZ ≠ 0 :=
  ex_nontrivial

/-- **C31.** Multiplying all lengths by `k > 0` and dividing the rotation rates by `k` multiplies forces by `k²` and
moments by `k³`. -/
theorem C31_length_scaling (G : LLGeom ι) (st : LLState ι) (d : AeroDict ι) (c : Option CtrlDict) (k : ℝ) (hk : 0 < k)
    (hd : d.truthy = true) :
    Outcome (fun R R' => LoadsScaled (k ^ 2) (k ^ 3) R R' ∧ SameSections (Equiv.refl ι) R R' ∧ R'.LD = R.LD)
      (llSolve G st "linear" (some d) c).1
      (llSolve (G.scaleLength k) st "linear" (some (d.divRates k)) c).1 := by
  let T := idSim k hk 0 1 one_pos 1
  have hk' := hk.ne'
  have h := llSolve_image T (Equiv.refl ι) (G := G) (G' := G.scaleLength k) (d := d) (d' := d.divRates k)
    (c := c) (c' := c) (τ := 1) (by simp [T]) (by simp)
    (fun i => by constructor <;> simp [T, LLGeom.scaleLength, Section.scaleLength])
    (by simp [T, LLGeom.scaleLength]) hd (by rw [truthy_divRates, hd])
    (arrOf_image T (Equiv.refl ι) (by simp [AeroDict.hasRates, AeroDict.divRates])
      (fun i => by
        simp only [AeroDict.divRates, getD_map_div, T, idSim_Q, idSim_spd, Equiv.refl_apply, LLGeom.scaleLength,
          Section.scaleLength]
        ext <;> simp <;> field_simp)
      (by simp [T, AeroDict.divRates]) (fun V => by simp [T, AeroDict.divRates])
      (fun _ => by simp [T, AeroDict.divRates]) (by simp [T, AeroDict.divRates]))
    st st (ctrlRefl (by unfold processCtrl; rfl))
  refine h.mono fun R R' _ _ hi => ⟨?_, hi.sameSections, ?_⟩
  · simpa [T] using hi.loadsScaled (fun a => by simp [T]) (by simp [T])
  · have := hi.LD (by simp [T])
    simpa [T] using this

-- the solve of the concrete wing `exGeom` succeeds with a non-zero force
example : exAero.truthy = true ∧
    ∃ R, (llSolve exGeom (LLState.init _) "linear" (some exAero) (some exCtrl)).1 = .ok R ∧ R.inviscid.FZ ≠ 0 :=
  ex_nontrivial

/-- **C29.** Listing the sections in any other order changes no total load; section quantities are permuted. -/
theorem C29_order (G : LLGeom ι) (σ : ι ≃ ι') (d : AeroDict ι) (c : Option CtrlDict) (hd : d.truthy = true) :
    Outcome (fun R R' => LoadsScaled 1 1 R R' ∧ SameSections σ R R' ∧ (∀ i, R'.gamma (σ i) = R.gamma i) ∧ R'.LD = R.LD)
      (llSolve G (LLState.init ι) "linear" (some d) c).1
      (llSolve (G.reindex σ) (LLState.init ι') "linear" (some (d.reindex σ)) c).1 := by
  let T := idSim 1 one_pos 0 1 one_pos 1
  have h := llSolve_image T σ (G := G) (G' := G.reindex σ) (d := d) (d' := d.reindex σ) (c := c) (c' := c)
    (τ := 1) (by simp [T]) (by simp)
    (fun i => by constructor <;> simp [T, LLGeom.reindex])
    (by simp [T, LLGeom.reindex]) hd (by rw [truthy_reindex, hd])
    (arrOf_image T σ rfl
      (fun i => by simp [T, LLGeom.reindex, AeroDict.reindex])
      (by simp [T, AeroDict.reindex]) (fun V => by simp [T, AeroDict.reindex])
      (fun _ => by simp [T, AeroDict.reindex]) (by simp [T, AeroDict.reindex]))
    (LLState.init ι) (LLState.init ι')
    (by
      unfold processCtrl
      cases c with
      | none => exact ⟨fun i => rfl, fun i => rfl⟩
      | some c =>
        simp only
        split
        · constructor <;> intro i <;> simp [LLGeom.reindex]
        · exact ⟨fun i => rfl, fun i => rfl⟩)
  refine h.mono fun R R' _ _ hi => ⟨?_, hi.sameSections, ?_, ?_⟩
  · simpa [T] using hi.loadsScaled (fun a => by simp [T]) (by simp [T])
  · intro i
    simpa [T] using hi.gamma i
  · have := hi.LD (by simp [T])
    simpa [T] using this

-- the solve of the concrete wing `exGeom` succeeds with a non-zero force
example : exAero.truthy = true ∧
    ∃ R, (llSolve exGeom (LLState.init _) "linear" (some exAero) (some exCtrl)).1 = .ok R ∧ R.inviscid.FZ ≠ 0 :=
  ex_nontrivial

/-- **C26.** Mirroring the aircraft (geometry and controls) and the flow keeps `FL, FD, FX, FZ, MY` and negates
`FS, FY, MX, MZ`, in all three result groups. -/
theorem C26_mirror (G : LLGeom ι) (d : AeroDict ι) (c : Option CtrlDict) (hd : d.truthy = true) :
    Outcome (fun R R' => R'.inviscid = R.inviscid.mirror ∧ R'.viscous = R.viscous.mirror ∧
        R'.total = R.total.mirror ∧ SameSections (Equiv.refl ι) R R' ∧ R'.gamma = R.gamma ∧ R'.LD = R.LD)
      (llSolve G (LLState.init ι) "linear" (some d) c).1
      (llSolve G.mirror (LLState.init ι) "linear" (some d.mirror) (c.map CtrlDict.mirror)).1 := by
  let T := mirSim
  have h := llSolve_image T (Equiv.refl ι) (G := G) (G' := G.mirror) (d := d) (d' := d.mirror) (c := c)
    (c' := c.map CtrlDict.mirror)
    (τ := -1) (by ext <;> simp [T, ey]) (by simp)
    (fun i => by constructor <;> simp [T, LLGeom.mirror, Section.mirror])
    (by simp [T, LLGeom.mirror]) hd (by rw [truthy_mirror, hd])
    (arrOf_image T (Equiv.refl ι) (by simp [AeroDict.hasRates, AeroDict.mirror])
      (fun i => by
        simp only [AeroDict.mirror, getD_map_neg, T, mirSim_Q, mirSim_spd, Equiv.refl_apply, LLGeom.mirror,
          Section.mirror]
        ext <;> simp <;> ring)
      (by simp [T, AeroDict.mirror])
      (fun V => by
        simp only [T, AeroDict.mirror, getD_map_neg, freestream_mir]
        rfl)
      (fun _ => by simp [T, AeroDict.mirror]) (by simp [T, AeroDict.mirror]))
    (LLState.init ι) (LLState.init ι)
    (by
      unfold processCtrl
      cases c with
      | none => exact ⟨fun i => rfl, fun i => rfl⟩
      | some c =>
        have ht : c.mirror.truthy = c.truthy := by simp [CtrlDict.truthy, CtrlDict.mirror]
        simp only [Option.map_some, ht]
        split
        · constructor <;> intro i <;>
            simp [LLGeom.mirror, Section.mirror, CtrlDict.mirror, getD_map_neg]
        · exact ⟨fun i => rfl, fun i => rfl⟩)
  have key : ∀ {l l' : Loads}, BodyLoadsImage mirSim l l' →
      (l'.FL = T.sgn * (-1) * (T.den * T.spd ^ 2 * T.len ^ 2) * l.FL ∧
        l'.FD = (T.den * T.spd ^ 2 * T.len ^ 2) * l.FD ∧
        l'.FS = -1 * (T.den * T.spd ^ 2 * T.len ^ 2) * l.FS) → l' = l.mirror := by
    intro l l' hb hw
    have hF := hb.F
    have hM := hb.M
    simp only [Loads.F, Loads.M, V3.ext_iff, smul_x, smul_y, smul_z, mirSim_Q, mir_x, mir_y, mir_z, mirSim_den,
      mirSim_spd, mirSim_len, mirSim_sgn] at hF hM
    obtain ⟨w1, w2, w3⟩ := hw
    ext
    · simp [Loads.mirror, w1, T]
    · simp [Loads.mirror, w2, T]
    · simp [Loads.mirror, w3, T]
    · simp [Loads.mirror, hF.1]
    · simp [Loads.mirror, hF.2.1]
    · simp [Loads.mirror, hF.2.2]
    · simp [Loads.mirror, hM.1]
    · simp [Loads.mirror, hM.2.1]
    · simp [Loads.mirror, hM.2.2]
  refine h.mono fun R R' _ _ hi => ⟨key hi.inviscid hi.windI, key hi.viscous hi.windV, key hi.total hi.windT,
    hi.sameSections, ?_, ?_⟩
  · funext i
    simpa [T] using hi.gamma i
  · have := hi.LD (by simp [T])
    simpa [T] using this

-- the solve of the concrete wing `exGeom` succeeds with a non-zero force
example : exAero.truthy = true ∧
    ∃ R, (llSolve exGeom (LLState.init _) "linear" (some exAero) (some exCtrl)).1 = .ok R ∧ R.inviscid.FZ ≠ 0 :=
  ex_nontrivial

end Verif
