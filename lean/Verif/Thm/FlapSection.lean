import Verif.Thm.Grid
import Verif.Thm.Flap
import Verif.Spec.Flap

/-!
# C15 and C17: control surfaces of aircraft built through the API
-/

namespace Verif
open V3

private theorem etaH_pos (b : Bool) {cf : ℝ} (h0 : 0 ≤ cf) : 0 < etaH b cf := by
  have h := lt_of_lt_of_le etaH_zero_pos (etaH_le_of_le true h0)
  cases b with
  | true => exact h
  | false =>
    have : etaH false cf = 0.8 * etaH true cf := by unfold etaH; simp; ring
    rw [this]
    norm_num
    exact h

/-! ### the formulas of the code are those of thin airfoil theory -/

private theorem hinge_eq (cf : ℝ) : hingeAngle cf = Real.arccos (2 * cf - 1) := by
  unfold hingeAngle
  congr 1
  ring

/-- only the flap contributes to integrals over the camber line -/
private theorem flap_integral (cf : ℝ) (f : ℝ → ℝ) (hf : Continuous f) :
    ∫ θ in (0 : ℝ)..Real.pi, flapSlope cf θ * f θ = -∫ θ in (hingeAngle cf)..Real.pi, f θ := by
  have h0 : 0 ≤ hingeAngle cf := Real.arccos_nonneg _
  have h1 : hingeAngle cf ≤ Real.pi := Real.arccos_le_pi _
  have e1 : ∀ θ ∈ Set.uIoc (0 : ℝ) (hingeAngle cf), flapSlope cf θ * f θ = 0 := by
    intro θ hθ
    rw [Set.uIoc_of_le h0] at hθ
    rw [flapSlope, if_neg (not_lt.2 hθ.2), zero_mul]
  have e2 : ∀ θ ∈ Set.uIoc (hingeAngle cf) Real.pi, flapSlope cf θ * f θ = -f θ := by
    intro θ hθ
    rw [Set.uIoc_of_le h1] at hθ
    rw [flapSlope, if_pos hθ.1]; ring
  have i1 : IntervalIntegrable (fun θ => flapSlope cf θ * f θ) MeasureTheory.volume 0 (hingeAngle cf) :=
    (intervalIntegrable_const (c := (0 : ℝ))).congr fun θ hθ => (e1 θ hθ).symm
  have i2 : IntervalIntegrable (fun θ => flapSlope cf θ * f θ) MeasureTheory.volume (hingeAngle cf) Real.pi :=
    (hf.neg.intervalIntegrable _ _).congr fun θ hθ => (e2 θ hθ).symm
  rw [← intervalIntegral.integral_add_adjacent_intervals i1 i2,
    intervalIntegral.integral_congr_ae (Filter.Eventually.of_forall e1),
    intervalIntegral.integral_congr_ae (Filter.Eventually.of_forall e2)]
  simp

theorem epsF_eq (cf : ℝ) : epsF cf = thinFlapEffectiveness cf := by
  unfold thinFlapEffectiveness zeroLiftAngle
  rw [flap_integral cf _ (by fun_prop)]
  rw [intervalIntegral.integral_sub (Real.continuous_cos.intervalIntegrable _ _) intervalIntegrable_const, integral_cos,
    intervalIntegral.integral_const, hinge_eq, Real.sin_pi, epsF]
  simp only [smul_eq_mul, mul_one]
  field_simp
  ring

theorem cmD_eq (cf : ℝ) : cmD cf = thinFlapMoment cf := by
  unfold thinFlapMoment quarterMoment
  rw [flap_integral cf _ (by fun_prop)]
  rw [intervalIntegral.integral_sub (Continuous.intervalIntegrable (by fun_prop) _ _) (Real.continuous_cos.intervalIntegrable _ _),
    integral_cos, intervalIntegral.integral_comp_mul_left (fun t => Real.cos t) two_ne_zero, integral_cos, hinge_eq, Real.sin_two_pi,
    Real.sin_pi, cmD]
  simp only [smul_eq_mul]
  ring

theorem etaH_eq (b : Bool) (cf : ℝ) : etaH b cf = hingeEfficiency b cf := by
  unfold etaH hingeEfficiency
  rw [show (cf + 0.006527) * 89.2574 + 4.898015 = 89.2574 * (cf + 0.006527) + 4.898015 by ring]
  cases b with
  | true => simp
  | false => simp; ring

/-- **C15.** A section outside the control surface gets no mixing, effectiveness or flap moment.  A section inside it gets the declared
mixing, with aileron and rudder reversed on the left.  Its flap chord fraction varies linearly from root to tip of the surface and is in
[0,1]; its effectiveness is the hinge efficiency times what thin airfoil theory says for that chord fraction, its flap moment
what thin airfoil theory says. -/
theorem C15_covered {nm : String} {pos : Option V3} {ops : List PlaneOp} {c : Bool} {g : Grid}
    (hg : mkGrid (built nm pos ops) c = .ok g) (k : ℕ) (s : Seg) (i : ℕ) (x : GridSec)
    (hx : SectionOf (built nm pos ops) g k s i x) (cf : ℝ) (hcf : cf = s.cs.chordFraction (rootStation s.side x.sp)) :
    (¬ Covered s x → x.mixA = 0 ∧ x.mixE = 0 ∧ x.mixR = 0 ∧ x.mixF = 0 ∧ x.flapEff = 0 ∧ x.cmd = 0) ∧
    (Covered s x →
      x.mixA = (if s.side = .left then -1 else 1) * s.cs.aileron.getD 0 ∧ x.mixE = s.cs.elevator.getD 0 ∧
      x.mixR = (if s.side = .left then -1 else 1) * s.cs.rudder.getD 0 ∧ x.mixF = s.cs.flap.getD 0 ∧
      0 ≤ cf ∧ cf ≤ 1 ∧
      x.flapEff = hingeEfficiency s.cs.sealed cf * thinFlapEffectiveness cf ∧
      x.cmd = thinFlapMoment cf) := by
  obtain ⟨h1, h2⟩ := section_flap hg k s i x hx
  refine ⟨h1, fun h => ?_⟩
  obtain ⟨hm, h0, h1, he, hc⟩ := h2 h
  rw [← hcf] at h0 h1 he hc
  rw [etaH_eq, epsF_eq] at he
  rw [cmD_eq] at hc
  simp only [CtrlSurf.mixFor, Prod.mk.injEq] at hm
  obtain ⟨a1, a2, a3, a4⟩ := hm
  refine ⟨?_, a2, ?_, a4, h0, h1, he, hc⟩
  · rw [a1]; cases s.side <;> cases s.cs.aileron <;> simp
  · rw [a3]; cases s.side <;> cases s.cs.rudder <;> simp

/-- **C17.** For flap chord fractions in [0,1] the theoretical flap effectiveness is 0 without a flap, 1 for an all-moving surface, in
[0,1] in between and strictly increasing. -/
theorem C17_theoretical :
    thinFlapEffectiveness 0 = 0 ∧ thinFlapEffectiveness 1 = 1 ∧
    (∀ cf, 0 ≤ cf → cf ≤ 1 → 0 ≤ thinFlapEffectiveness cf ∧ thinFlapEffectiveness cf ≤ 1) ∧
    (∀ a b, 0 ≤ a → a < b → b ≤ 1 → thinFlapEffectiveness a < thinFlapEffectiveness b) := by
  simp_rw [← epsF_eq]
  exact eps_range

/-- **C17, bounds.** Every section of every aircraft has a flap effectiveness in [0,1] and a flap moment that is not
nose-up.  Where the flap has no chord there is neither effectiveness nor moment. -/
theorem C17_section (nm : String) (pos : Option V3) (ops : List PlaneOp) (c : Bool) (g : Grid)
    (hg : mkGrid (built nm pos ops) c = .ok g) (k : ℕ) (s : Seg) (i : ℕ) (x : GridSec)
    (hx : SectionOf (built nm pos ops) g k s i x) :
    0 ≤ x.flapEff ∧ x.flapEff ≤ 1 ∧ x.cmd ≤ 0 ∧
    (Covered s x → s.cs.chordFraction (rootStation s.side x.sp) = 0 → x.flapEff = 0 ∧ x.cmd = 0) ∧
    (Covered s x → 0 < s.cs.chordFraction (rootStation s.side x.sp) → 0 < x.flapEff) ∧
    (Covered s x → s.cs.chordFraction (rootStation s.side x.sp) = 1 → x.cmd = 0) := by
  obtain ⟨h1, h2⟩ := section_flap hg k s i x hx
  by_cases h : Covered s x
  · obtain ⟨_, a, b, e1, e2⟩ := h2 h
    obtain ⟨b1, b2⟩ := eff_range.2.1 s.cs.sealed _ a b
    rw [e1, e2]
    refine ⟨b1, b2, moment_sign.2.2 _, fun _ h0 => ?_, fun _ h0 => ?_, fun _ h0 => ?_⟩
    · rw [h0, epsF_zero, moment_sign.1]; exact ⟨mul_zero _, rfl⟩
    · exact mul_pos (etaH_pos _ a) (by have := epsF_lt le_rfl h0 b; rwa [epsF_zero] at this)
    · rw [h0, moment_sign.2.1]
  · obtain ⟨_, _, _, _, e1, e2⟩ := h1 h
    rw [e1, e2]
    exact ⟨le_rfl, zero_le_one, le_rfl, fun h' => absurd h' h, fun h' => absurd h' h, fun h' => absurd h' h⟩

/-- **C17, comparison.** Of two sections (of the same or of different aircraft) covered by control surfaces, the one with
the larger flap chord fraction has the larger effectiveness if both surfaces are sealed or both are not; with the same
chord fraction an unsealed gap gives exactly 0.8 times the sealed effectiveness, and the same flap moment. -/
theorem C17_compare (nm nm' : String) (pos pos' : Option V3) (ops ops' : List PlaneOp) (c c' : Bool) (g g' : Grid)
    (hg : mkGrid (built nm pos ops) c = .ok g) (hg' : mkGrid (built nm' pos' ops') c' = .ok g')
    (k k' i i' : ℕ) (s s' : Seg) (x x' : GridSec)
    (hx : SectionOf (built nm pos ops) g k s i x) (hx' : SectionOf (built nm' pos' ops') g' k' s' i' x')
    (hc : Covered s x) (hc' : Covered s' x') (cf cf' : ℝ)
    (hcf : cf = s.cs.chordFraction (rootStation s.side x.sp))
    (hcf' : cf' = s'.cs.chordFraction (rootStation s'.side x'.sp)) :
    (s.cs.sealed = s'.cs.sealed → cf < cf' → x.flapEff < x'.flapEff) ∧
    (s.cs.sealed = s'.cs.sealed → cf = cf' → x.flapEff = x'.flapEff) ∧
    (s.cs.sealed = false → s'.cs.sealed = true → cf = cf' → x.flapEff = 0.8 * x'.flapEff) ∧
    (cf = cf' → x.cmd = x'.cmd) := by
  obtain ⟨_, a, b, e1, e2⟩ := (section_flap hg k s i x hx).2 hc
  obtain ⟨_, a', b', e1', e2'⟩ := (section_flap hg' k' s' i' x' hx').2 hc'
  rw [← hcf] at a b e1 e2
  rw [← hcf'] at a' b' e1' e2'
  refine ⟨fun hs h => ?_, fun hs h => ?_, fun hs hs' h => ?_, fun h => ?_⟩
  · rw [e1, e1', hs]
    exact mul_lt_mul' (etaH_le_of_le _ h.le) (epsF_lt a h b') ((eps_range.2.2.1 cf a b).1) (etaH_pos _ a')
  · rw [e1, e1', hs, h]
  · rw [e1, e1', hs, hs', h]; exact eff_range.1 _
  · rw [e2, e2', h]

/-- a section of the demonstration aircraft covered by the aileron, which has a quarter of the chord there -/
example : ∃ g x, mkGrid demo false = .ok g ∧ SectionOf demo g 1 (demoMain .right) 30 x ∧ Covered (demoMain .right) x ∧
    (demoMain .right).cs.chordFraction (rootStation (demoMain .right).side x.sp) = 0.25 := by
  obtain ⟨g, hg⟩ := demo_grid false
  obtain ⟨x, hx⟩ := sectionOf_exists hg (k := 1) (s := demoMain .right) rfl (i := 30) (by simp [demoMain])
  refine ⟨g, x, hg, hx, ?_, by simp [CtrlSurf.chordFraction, demoMain, demoCs]⟩
  obtain ⟨hi, l, r, _, _, _, _, _, rfl⟩ := sectionOf_eq hg hx
  have e : rootStation Side.right (sCp false 40 30) = 0.7625 := by
    simp [rootStation, sCp, spacing, linSpacing]; norm_num
  show 0.5 < rootStation Side.right (sCp false 40 30) ∧ rootStation Side.right (sCp false 40 30) < 0.9
  rw [e]; norm_num

end Verif
