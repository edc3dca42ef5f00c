import Verif.Lemmas.LLApi
import Verif.Spec.LLInputs

/-! Helper lemmas for the scaling / symmetry theorems: images of the input arrays. -/

set_option linter.unusedSectionVars false

namespace Verif
open V3

variable {ι ι' : Type*} [Fintype ι] [DecidableEq ι] [Fintype ι'] [DecidableEq ι']

/-- `Sim` with identity isometry -/
noncomputable def idSim (len : ℝ) (hl : 0 < len) (tr : V3) (spd : ℝ) (hs : 0 < spd) (den : ℝ) : Sim :=
  { Iso.id with len := len, len_pos := hl, tr := tr, spd := spd, spd_pos := hs, den := den }

noncomputable def mirSim : Sim :=
  { Iso.mirror with len := 1, len_pos := one_pos, tr := 0, spd := 1, spd_pos := one_pos, den := 1 }

section
variable {len : ℝ} {hl : 0 < len} {tr : V3} {spd : ℝ} {hs : 0 < spd} {den : ℝ}
@[simp] theorem idSim_Q (a : V3) : (idSim len hl tr spd hs den).Q a = a := rfl
@[simp] theorem idSim_map (o : Option V3) : o.map (idSim len hl tr spd hs den).Q = o := by cases o <;> rfl
@[simp] theorem idSim_flip : (idSim len hl tr spd hs den).flip = false := rfl
@[simp] theorem idSim_sgn : (idSim len hl tr spd hs den).sgn = 1 := by simp [Iso.sgn]
@[simp] theorem idSim_len : (idSim len hl tr spd hs den).len = len := rfl
@[simp] theorem idSim_spd : (idSim len hl tr spd hs den).spd = spd := rfl
@[simp] theorem idSim_den : (idSim len hl tr spd hs den).den = den := rfl
@[simp] theorem idSim_pt (a : V3) : (idSim len hl tr spd hs den).pt a = len • a + tr := rfl
end
@[simp] theorem mirSim_Q (a : V3) : mirSim.Q a = mir a := rfl
@[simp] theorem mirSim_flip : mirSim.flip = true := rfl
@[simp] theorem mirSim_sgn : mirSim.sgn = -1 := by simp [Iso.sgn]
@[simp] theorem mirSim_len : mirSim.len = 1 := rfl
@[simp] theorem mirSim_spd : mirSim.spd = 1 := rfl
@[simp] theorem mirSim_den : mirSim.den = 1 := rfl
@[simp] theorem mirSim_pt (a : V3) : mirSim.pt a = mir a := by
  have : mirSim.tr = 0 := rfl
  simp [Sim.pt, this]

theorem freestream_scale (k V a b : ℝ) : freestream (k * V) a b = (freestream V a b).map (k • ·) := by
  unfold freestream
  simp only
  split
  · rfl
  · simp only [Option.map_some, Option.some.injEq]
    ext <;> simp <;> ring

theorem rad_neg (b : ℝ) : rad (-b) = -rad b := by unfold rad; ring

theorem freestream_mir (V a b : ℝ) : freestream V a (-b) = (freestream V a b).map mir := by
  unfold freestream
  simp only [rad_neg, Real.cos_neg, Real.sin_neg]
  rw [show 1 - Real.sin (rad a) * Real.sin (rad a) * -Real.sin (rad b) * -Real.sin (rad b) =
    1 - Real.sin (rad a) * Real.sin (rad a) * Real.sin (rad b) * Real.sin (rad b) by ring]
  split
  · rfl
  · simp only [Option.map_some, Option.some.injEq]
    ext <;> simp

theorem unit_smul_pos {k : ℝ} (hk : 0 < k) (v : V3) : unit (k • v) = unit v := by
  unfold unit
  rw [nrm_smul_pos hk, smul_smul]
  congr 1
  simp only [one_div, mul_inv]
  field_simp

theorem normalise_smul {k : ℝ} (hk : 0 < k) (v : V3) : normalise (k • v) = normalise v := by
  unfold normalise
  rw [unit_smul_pos hk, nrm_smul_pos hk]
  simp [hk.ne']

theorem nrm_mir (v : V3) : nrm (mir v) = nrm v := by simp [nrm, dot]

theorem normalise_mir (v : V3) : normalise (mir v) = (normalise v).map mir := by
  unfold normalise
  rw [nrm_mir]
  split
  · rfl
  · simp [unit, nrm_mir, mir_smul]

theorem meanV_smul (k : ℝ) (v : ι → V3) : meanV (fun i => k • v i) = (meanV v).map (k • ·) := by
  unfold meanV
  split
  · rfl
  · simp only [Option.map_some, Option.some.injEq]
    rw [← Finset.smul_sum, smul_comm]

theorem meanV_mir (v : ι → V3) : meanV (fun i => mir (v i)) = (meanV v).map mir := by
  unfold meanV
  split
  · rfl
  · simp only [Option.map_some, Option.some.injEq]
    have : ∑ i, mir (v i) = mir (∑ i, v i) := (map_sum Iso.mirror.Q v Finset.univ).symm
    rw [this, mir_smul]

theorem meanV_reindex (σ : ι ≃ ι') (v : ι → V3) : meanV (fun i' => v (σ.symm i')) = meanV v := by
  unfold meanV
  rw [Fintype.card_congr σ, Equiv.sum_comp σ.symm v]

theorem bind_map_normalise {o : Option V3} {k : ℝ} (hk : 0 < k) :
    (o.map (k • ·)).bind normalise = o.bind normalise := by
  cases o with
  | none => rfl
  | some v => exact normalise_smul hk v

theorem bind_mir_normalise {o : Option V3} : (o.map mir).bind normalise = (o.bind normalise).map mir := by
  cases o with
  | none => rfl
  | some v => exact normalise_mir v

theorem hasRates_congr {d : AeroDict ι} {d' : AeroDict ι'} (h1 : d'.roll.isSome = d.roll.isSome)
    (h2 : d'.pitch.isSome = d.pitch.isSome) (h3 : d'.yaw.isSome = d.yaw.isSome) : d'.hasRates = d.hasRates := by
  simp [AeroDict.hasRates, h1, h2, h3]

/-- correspondence of optional velocity arrays -/
def VImage (T : Sim) (σ : ι ≃ ι') (v : Option (ι → V3)) (v' : Option (ι' → V3)) : Prop :=
  (v = none ∧ v' = none) ∨ ∃ w w', v = some w ∧ v' = some w' ∧ ∀ i, w' (σ i) = T.spd • T.Q (w i)

theorem rotArr_image (T : Sim) (σ : ι ≃ ι') {G : LLGeom ι} {G' : LLGeom ι'} {d : AeroDict ι} {d' : AeroDict ι'}
    (hr : d'.hasRates = d.hasRates)
    (hx : ∀ i, cross ⟨d'.roll.getD 0, d'.pitch.getD 0, d'.yaw.getD 0⟩ ((G'.S (σ i)).rcp - G'.cg) =
      T.spd • T.Q (cross ⟨d.roll.getD 0, d.pitch.getD 0, d.yaw.getD 0⟩ ((G.S i).rcp - G.cg)))
    {v : Option (ι → V3)} {v' : Option (ι' → V3)} (hv : VImage T σ v v') :
    VImage T σ (rotArr G d v) (rotArr G' d' v') := by
  unfold rotArr
  rw [hr]
  split
  · rcases hv with ⟨rfl, rfl⟩ | ⟨w, w', rfl, rfl, hw⟩
    · exact Or.inl ⟨rfl, rfl⟩
    · refine Or.inr ⟨_, _, rfl, rfl, fun i => ?_⟩
      simp only [hw, hx, map_sub, smul_sub]
  · exact hv

/-- main lemma: correspondence of the arrays from correspondence of the dictionary entries -/
theorem arrOf_image (T : Sim) (σ : ι ≃ ι') {G : LLGeom ι} {G' : LLGeom ι'} {d : AeroDict ι} {d' : AeroDict ι'}
    (hr : d'.hasRates = d.hasRates)
    (hx : ∀ i, cross ⟨d'.roll.getD 0, d'.pitch.getD 0, d'.yaw.getD 0⟩ ((G'.S (σ i)).rcp - G'.cg) =
      T.spd • T.Q (cross ⟨d.roll.getD 0, d.pitch.getD 0, d.yaw.getD 0⟩ ((G.S i).rcp - G.cg)))
    (hV : d'.Vmag = d.Vmag.map (T.spd * ·))
    (hfs : ∀ V, freestream V (d'.alpha.getD 0) (d'.beta.getD 0) =
      (freestream V (d.alpha.getD 0) (d.beta.getD 0)).map T.Q)
    (hrho : d.localState = none → d'.rho = d.rho.map (T.den * ·))
    (hls : d'.localState = d.localState.map fun ls i' =>
      (T.den * (ls (σ.symm i')).1, T.spd • T.Q (ls (σ.symm i')).2)) :
    Outcome (ArrImage T σ) (arrOf G d) (arrOf G' d') := by
  have hn : ∀ o : Option V3, (o.map T.Q).bind normalise = (o.bind normalise).map T.Q := by
    intro o
    cases o with
    | none => rfl
    | some v =>
      simp only [Option.map_some, Option.bind_some, normalise, T.nrm_Q]
      split
      · rfl
      · simp [unit, T.nrm_Q]
  unfold arrOf
  rw [hls]
  cases hl : d.localState with
  | some ls =>
    simp only [Option.map_some, Outcome]
    refine ⟨rotArr_image T σ hr hx (Or.inr ⟨_, _, rfl, rfl, fun i => by simp⟩), ?_, fun i => by simp⟩
    rw [hV]
    cases d.Vmag with
    | none =>
      simp only [Option.map_none]
      rw [meanV_smul, bind_map_normalise T.spd_pos, meanV_reindex σ (fun i => T.Q (ls i).2), ← hn]
      congr 1
      unfold meanV
      split
      · rfl
      · simp
    | some V =>
      simp only [Option.map_some]
      rw [freestream_scale, bind_map_normalise T.spd_pos, hfs, hn]
  | none =>
    have hrho := hrho hl
    simp only [Option.map_none]
    rw [hV, hrho]
    cases d.Vmag with
    | none => simp [Outcome]
    | some V =>
      cases d.rho with
      | none => simp [Outcome]
      | some rho =>
        simp only [Option.map_some, Outcome]
        refine ⟨rotArr_image T σ hr hx ?_, ?_, fun i => rfl⟩
        · rw [freestream_scale, hfs]
          cases freestream V (d.alpha.getD 0) (d.beta.getD 0) with
          | none => exact Or.inl ⟨rfl, rfl⟩
          | some w => exact Or.inr ⟨_, _, rfl, rfl, fun i => rfl⟩
        · simp only
          rw [freestream_scale, bind_map_normalise T.spd_pos, hfs, hn]

theorem truthy_scaleSpeed (k : ℝ) (d : AeroDict ι) : (d.scaleSpeed k).truthy = d.truthy := by
  simp [AeroDict.truthy, AeroDict.scaleSpeed]
theorem truthy_scaleDensity (k : ℝ) (d : AeroDict ι) : (d.scaleDensity k).truthy = d.truthy := by
  simp [AeroDict.truthy, AeroDict.scaleDensity]
theorem truthy_divRates (k : ℝ) (d : AeroDict ι) : (d.divRates k).truthy = d.truthy := by
  simp [AeroDict.truthy, AeroDict.divRates]
theorem truthy_mirror (d : AeroDict ι) : d.mirror.truthy = d.truthy := by
  simp [AeroDict.truthy, AeroDict.mirror]
theorem truthy_reindex (σ : ι ≃ ι') (d : AeroDict ι) : (d.reindex σ).truthy = d.truthy := by
  simp [AeroDict.truthy, AeroDict.reindex]

theorem ctrlRefl {C C' : Ctrl ι} (h : C' = C) : CtrlImage (Equiv.refl ι) C C' := by
  subst h; exact ⟨fun _ => rfl, fun _ => rfl⟩

theorem getD_map_mul (k : ℝ) (o : Option ℝ) : (o.map (k * ·)).getD 0 = k * o.getD 0 := by
  cases o <;> simp
theorem getD_map_div (k : ℝ) (o : Option ℝ) : (o.map (· / k)).getD 0 = o.getD 0 / k := by
  cases o <;> simp
theorem getD_map_neg (o : Option ℝ) : (o.map (- ·)).getD 0 = - o.getD 0 := by
  cases o <;> simp

theorem FullImage.loadsScaled {T : Sim} {σ : ι ≃ ι'} {R : Sol ι} {R' : Sol ι'} (h : FullImage T 1 σ R R')
    (hQ : ∀ a, T.Q a = a) (hs : T.sgn = 1) :
    LoadsScaled (T.den * T.spd ^ 2 * T.len ^ 2) (T.den * T.spd ^ 2 * T.len ^ 3) R R' := by
  have key : ∀ {l l' : Loads}, BodyLoadsImage T l l' →
      (l'.FL = T.sgn * 1 * (T.den * T.spd ^ 2 * T.len ^ 2) * l.FL ∧
        l'.FD = (T.den * T.spd ^ 2 * T.len ^ 2) * l.FD ∧
        l'.FS = 1 * (T.den * T.spd ^ 2 * T.len ^ 2) * l.FS) →
      l' = l.scale (T.den * T.spd ^ 2 * T.len ^ 2) (T.den * T.spd ^ 2 * T.len ^ 3) := by
    intro l l' hb hw
    have hF := hb.F
    have hM := hb.M
    rw [hQ] at hF hM
    rw [hs, one_mul] at hM
    simp only [Loads.F, Loads.M, V3.ext_iff, smul_x, smul_y, smul_z] at hF hM
    obtain ⟨w1, w2, w3⟩ := hw
    rw [hs] at w1
    ext
    · simp [Loads.scale, w1]
    · simp [Loads.scale, w2]
    · simp [Loads.scale, w3]
    · exact hF.1
    · exact hF.2.1
    · exact hF.2.2
    · exact hM.1
    · exact hM.2.1
    · exact hM.2.2
  exact ⟨key h.inviscid h.windI, key h.viscous h.windV, key h.total h.windT⟩

theorem FullImage.sameSections {T : Sim} {τ : ℝ} {σ : ι ≃ ι'} {R : Sol ι} {R' : Sol ι'} (h : FullImage T τ σ R R') :
    SameSections σ R R' := ⟨h.alpha, h.cl, h.cd, h.cm⟩

end Verif
