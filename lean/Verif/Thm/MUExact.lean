import Verif.Spec.MUExact
import Verif.Thm.MUDerivs
import Verif.Examples.LineBackend
import Verif.Examples.FlatDerivs
import Mathlib.Analysis.Calculus.Deriv.Pow
import Mathlib.Analysis.Calculus.Deriv.Mul
import Mathlib.Analysis.Calculus.Deriv.Add

/-!
# Finite differences of load curves up to second order are exact (C55)
-/

namespace Verif
open Act

variable {ι : Type} {B : Backend ι} {ps : Option B.π}

/-- the exact derivative of a polynomial of degree two in `t/u`, written as a central difference -/
theorem quad_hasDerivAt (p q r u x h k : ℝ) (hu : u ≠ 0) (hh : h ≠ 0)
    (hk : k = ((p + q * (x + h) + r * (x + h) ^ 2) - (p + q * (x - h) + r * (x - h) ^ 2)) / (2 * (h * u))) :
    HasDerivAt (fun t => p + q * (t / u) + r * (t / u) ^ 2) k (x * u) := by
  have h1 : HasDerivAt (fun t : ℝ => t / u) (1 / u) (x * u) := (hasDerivAt_id _).div_const u
  have h2 := (h1.const_mul q).const_add p
  have h3 := (h1.pow 2).const_mul r
  have h4 := h2.add h3
  refine HasDerivAt.congr_deriv (f := fun t => p + q * (t / u) + r * (t / u) ^ 2) h4 ?_
  rw [hk]
  field_simp
  ring

private theorem unscale {a b : ℝ} (ha : a ≠ 0) : a * (b / a) = b := by field_simp

/-- central differences of quadratic curves -/
theorem IsCentralDifference.exact {D : Deriv} {P Q R : Loads} {x h u q S lat long : ℝ} (hu : u ≠ 0) (hh : h ≠ 0)
    (hq : q * S ≠ 0) (hlat : lat ≠ 0) (hlong : long ≠ 0)
    (hD : D.IsCentralDifference (quadLoads P Q R (x + h)) (quadLoads P Q R (x - h)) (h * u) q S lat long) :
    D.IsExact (fun t => quadLoads P Q R (t / u)) (x * u) q S lat long := by
  obtain ⟨h1, h2, h3, h4, h5, h6, h7, h8, h9⟩ := hD
  constructor
  · exact quad_hasDerivAt _ _ _ u x h _ hu hh (by rw [h1, unscale hq]; rfl)
  · exact quad_hasDerivAt _ _ _ u x h _ hu hh (by rw [h2, unscale hq]; rfl)
  · exact quad_hasDerivAt _ _ _ u x h _ hu hh (by rw [h3, unscale hq]; rfl)
  · exact quad_hasDerivAt _ _ _ u x h _ hu hh (by rw [h4, unscale hq]; rfl)
  · exact quad_hasDerivAt _ _ _ u x h _ hu hh (by rw [h5, unscale hq]; rfl)
  · exact quad_hasDerivAt _ _ _ u x h _ hu hh (by rw [h6, unscale hq]; rfl)
  · exact quad_hasDerivAt _ _ _ u x h _ hu hh (by rw [h7, unscale (mul_ne_zero hq hlat)]; rfl)
  · exact quad_hasDerivAt _ _ _ u x h _ hu hh (by rw [h8, unscale (mul_ne_zero hq hlong)]; rfl)
  · exact quad_hasDerivAt _ _ _ u x h _ hu hh (by rw [h9, unscale (mul_ne_zero hq hlat)]; rfl)

/-- a reported derivative of a quadratic curve -/
theorem ReportedDerivative.exact {D : Option Deriv} {D' : Deriv} {P Q R forw back : Loads} {x h k u q : ℝ}
    (hR : ReportedDerivative B D forw back k q) (hD : D = some D') (hf : forw = quadLoads P Q R (x + h))
    (hb : back = quadLoads P Q R (x - h)) (hk : k = h * u) (hh : k ≠ 0) :
    D'.IsExact (fun t => quadLoads P Q R (t / u)) (x * u) q B.Sw B.lat B.long := by
  have h0 : ¬ (q * B.Sw = 0 ∨ B.lat = 0 ∨ B.long = 0) := by
    rw [← hR.2, hD]
    simp
  push Not at h0
  have h1 := hR.1 _ hD
  rw [hf, hb, hk] at h1
  rw [hk] at hh
  exact IsCentralDifference.exact (right_ne_zero_of_mul hh) (left_ne_zero_of_mul hh) h0.1 h0.2.1 h0.2.2 h1

/-- **C55, angles.** If all loads are polynomials of degree at most two in the angle of attack `alpha` (in degrees), the
`_a` derivatives reported are the exact derivatives per radian at the given `alpha`, in coefficient form; likewise for
`beta`. -/
theorem C55_stability {w w' : World B} {d : AeroDict ι} {D : StabDeriv} {D' : Deriv}
    (hd : w.aero = some d) (ht : d.truthy = true) (h : stabilityDerivatives ps w = (.ok D, w')) {P Q R : Loads} :
    ((∀ x L, SolvedAt ps { d with alpha := some x } w.ctrl L → L = quadLoads P Q R x) → D.a = some D' →
      D'.IsExact (fun θ => quadLoads P Q R (θ / degree)) (d.alpha.getD 0 * degree) d.q B.Sw B.lat B.long) ∧
    ((∀ x L, SolvedAt ps { d with alpha := some (d.alpha.getD 0), beta := some x } w.ctrl L → L = quadLoads P Q R x) →
      D.b = some D' →
      D'.IsExact (fun θ => quadLoads P Q R (θ / degree)) (d.beta.getD 0 * degree) d.q B.Sw B.lat B.long) := by
  obtain ⟨-, -, -, aF, aB, bF, bB, h1, h2, h3, h4, h5, h6⟩ := C42_stability_derivatives hd ht h
  have hk : (0.5 * degree : ℝ) ≠ 0 := by
    unfold degree
    positivity
  exact ⟨fun hq hD => h5.exact hD (hq _ _ h1) (hq _ _ h2) rfl hk, fun hq hD => h6.exact hD (hq _ _ h3) (hq _ _ h4) rfl hk⟩

/-- **C55, rates.** If all loads are polynomials of degree at most two in the roll rate `p`, the `_pbar` derivatives are the
exact derivatives with respect to `p·lat/(2V)`; likewise for the pitch rate with `q·long/(2V)` and for the yaw rate with
`r·lat/(2V)`. -/
theorem C55_damping {w w' : World B} {d : AeroDict ι} {D : DampDeriv} {D' : Deriv}
    (hd : w.aero = some d) (ht : d.truthy = true) (h : dampingDerivatives ps w = (.ok D, w')) {P Q R : Loads} :
    let V := d.Vmag.getD 10
    let d1 := { d with roll := some (d.roll.getD 0) }
    let d2 := { d1 with pitch := some (d.pitch.getD 0) }
    ((∀ x L, SolvedAt ps { d with roll := some x } w.ctrl L → L = quadLoads P Q R x) → D.p = some D' →
      D'.IsExact (fun t => quadLoads P Q R (t / (B.lat / (2 * V)))) (d.roll.getD 0 * (B.lat / (2 * V))) d.q
        B.Sw B.lat B.long) ∧
    ((∀ x L, SolvedAt ps { d1 with pitch := some x } w.ctrl L → L = quadLoads P Q R x) → D.q = some D' →
      D'.IsExact (fun t => quadLoads P Q R (t / (B.long / (2 * V)))) (d.pitch.getD 0 * (B.long / (2 * V))) d.q
        B.Sw B.lat B.long) ∧
    ((∀ x L, SolvedAt ps { d2 with yaw := some x } w.ctrl L → L = quadLoads P Q R x) → D.r = some D' →
      D'.IsExact (fun t => quadLoads P Q R (t / (B.lat / (2 * V)))) (d.yaw.getD 0 * (B.lat / (2 * V))) d.q
        B.Sw B.lat B.long) := by
  obtain ⟨-, -, -, pF, pB, qF, qB, rF, rB, h1, h2, h3, h4, h5, h6, h7, h8, h9⟩ := C43_damping_partial hd ht h
  have hk : (0.005 : ℝ) ≠ 0 := by norm_num
  have hne : ∀ {X : Option Deriv} {X' : Deriv} {forw back : Loads}, ReportedDerivative B X forw back 0.005 d.q → X = some X' →
      d.Vmag.getD 10 ≠ 0 ∧ B.lat ≠ 0 ∧ B.long ≠ 0 := by
    intro X X' forw back hR hX
    have h0 : ¬ (d.q * B.Sw = 0 ∨ B.lat = 0 ∨ B.long = 0) := by
      rw [← hR.2, hX]
      simp
    push Not at h0
    refine ⟨fun hv => h0.1 ?_, h0.2⟩
    unfold AeroDict.q
    rw [hv]
    simp
  refine ⟨fun hq hD => ?_, fun hq hD => ?_, fun hq hD => ?_⟩
  · obtain ⟨hv, hl, hg⟩ := hne h7 hD
    exact h7.exact hD (hq _ _ h1) (hq _ _ h2) (by field_simp) hk
  · obtain ⟨hv, hl, hg⟩ := hne h8 hD
    exact h8.exact hD (hq _ _ h3) (hq _ _ h4) (by field_simp) hk
  · obtain ⟨hv, hl, hg⟩ := hne h9 hD
    exact h9.exact hD (hq _ _ h5) (hq _ _ h6) (by field_simp) hk

/-- **C55, controls.** If all loads are polynomials of degree at most two in a control deflection (in degrees), the control
derivatives reported are the exact derivatives per radian at the given deflection. -/
theorem C55_control {w w' : World B} {d : AeroDict ι} {c : CtrlDict} {D : ContDeriv} {D' : Deriv}
    (hd : w.aero = some d) (hc : w.ctrl = some c) (ht : c.truthy = true) (h : controlDerivatives ps w = (.ok D, w'))
    {P Q R : Loads} :
    let c1 := { c with aileron := some (c.aileron.getD 0) }
    let c2 := { c1 with elevator := some (c.elevator.getD 0) }
    let c3 := { c2 with rudder := some (c.rudder.getD 0) }
    let Exact (x : ℝ) := D'.IsExact (fun θ => quadLoads P Q R (θ / degree)) (x * degree) d.q B.Sw B.lat B.long
    ((∀ x L, SolvedAt ps d (some { c with aileron := some x }) L → L = quadLoads P Q R x) → D.da = some D' →
      Exact (c.aileron.getD 0)) ∧
    ((∀ x L, SolvedAt ps d (some { c1 with elevator := some x }) L → L = quadLoads P Q R x) → D.de = some D' →
      Exact (c.elevator.getD 0)) ∧
    ((∀ x L, SolvedAt ps d (some { c2 with rudder := some x }) L → L = quadLoads P Q R x) → D.dr = some D' →
      Exact (c.rudder.getD 0)) ∧
    ((∀ x L, SolvedAt ps d (some { c3 with flap := some x }) L → L = quadLoads P Q R x) → D.df = some D' →
      Exact (c.flap.getD 0)) := by
  obtain ⟨-, -, -, aF, aB, eF, eB, rF, rB, fF, fB, h1, h2, h3, h4, h5, h6, h7, h8, h9, h10, h11, h12⟩ :=
    C44_control_derivatives hd hc ht h
  have hk : (0.25 * degree : ℝ) ≠ 0 := by
    unfold degree
    positivity
  exact ⟨fun hq hD => h9.exact hD (hq _ _ h1) (hq _ _ h2) rfl hk, fun hq hD => h10.exact hD (hq _ _ h3) (hq _ _ h4) rfl hk,
    fun hq hD => h11.exact hD (hq _ _ h5) (hq _ _ h6) rfl hk, fun hq hD => h12.exact hD (hq _ _ h7) (hq _ _ h8) rfl hk⟩

/-- **C55, static margin.** The static margin reported with the derivatives is minus the ratio of the changes of pitching
moment and lift between `alpha ± 0.5°`, over the longitudinal reference length: the dynamic pressure cancels. -/
theorem C55_static_margin {w w' : World B} {d : AeroDict ι} {A : AllDerivs} {m : ℝ} {f : Option String}
    (hd : w.aero = some d) (ht : d.truthy = true) (h : derivatives ps f w = (.ok (some A), w')) (hm : A.margin = some m) :
    ∃ forw back : Loads, SolvedAt ps { d with alpha := some (d.alpha.getD 0 + 0.5) } w.ctrl forw ∧
      SolvedAt ps { d with alpha := some (d.alpha.getD 0 - 0.5) } w.ctrl back ∧
      m = -(forw.MY - back.MY) / (B.long * (forw.FL - back.FL)) := by
  unfold derivatives at h
  split_ifs at h with hw
  · replace h := bind_ok.1 h
    obtain ⟨s, w1, h1, h⟩ := h
    replace h := bind_ok.1 h
    obtain ⟨c, w2, h2, h⟩ := h
    replace h := bind_ok.1 h
    obtain ⟨dd, w3, h3, h⟩ := h
    replace h := bind_ok.1 h
    obtain ⟨_, w4, h4, h⟩ := h
    cases h
    obtain ⟨-, -, -, aF, aB, bF, bB, g1, g2, g3, g4, g5, g6⟩ := C42_stability_derivatives hd ht h1
    refine ⟨aF, aB, g1, g2, ?_⟩
    simp only [staticMargin] at hm
    rcases hs : s.a with _ | D
    · rw [hs] at hm
      simp at hm
    rw [hs] at hm
    simp only at hm
    split_ifs at hm with h0
    cases hm
    have hn : ¬ (d.q * B.Sw = 0 ∨ B.lat = 0 ∨ B.long = 0) := by
      rw [← g5.2, hs]
      simp
    push Not at hn
    obtain ⟨hq, hl, hg⟩ := hn
    obtain ⟨e1, -, -, -, -, -, -, e8, -⟩ := g5.1 _ hs
    have hdeg : (0.5 * degree : ℝ) ≠ 0 := by
      unfold degree
      positivity
    rw [e1] at h0
    have hFL : aF.FL - aB.FL ≠ 0 := by
      intro hz
      rw [hz] at h0
      simp at h0
    rw [e1, e8]
    generalize (0.5 * degree : ℝ) = k at hdeg ⊢
    generalize d.q * B.Sw = qs at hq ⊢
    field_simp
  · split at h
    · replace h := bind_ok.1 h
      obtain ⟨_, _, _, h⟩ := h
      cases h
    · cases h

/-! ### The hypotheses are met -/

/-- lift `1 + 2a + 3a²`, pitching moment `4 - a` -/
noncomputable abbrev parabolaB : Backend (Fin 2) := curveB (fun a _ => 1 + 2 * a + 3 * a ^ 2) (fun a _ => 4 - a)

theorem parabola_solves (ps : Option Unit) : SolvesAll (B := parabolaB) ps (fun d => d.truthy = true) := by
  intro w d hd ht
  obtain ⟨r, w', h, -, -⟩ := curve_solve (f := fun a _ => 1 + 2 * a + 3 * a ^ 2) (m := fun a _ => 4 - a) (ps := ps) hd ht
  exact ⟨r, w', h⟩

theorem parabola_quad {ps : Option Unit} {d : AeroDict (Fin 2)} {c : Option CtrlDict} (x : ℝ) (L : Loads)
    (h : SolvedAt (B := parabolaB) ps { d with alpha := some x } c L) :
    L = quadLoads { Loads.zero with FL := 1, MY := 4 } { Loads.zero with FL := 2, MY := -1 } { Loads.zero with FL := 3 } x := by
  obtain ⟨w, w', d', hd, hs, hc, h⟩ := h
  have hd' := hs.2 rfl
  subst hd'
  obtain ⟨st, aero, ctrl, objs, files⟩ := w
  simp only at hd
  subst hd
  unfold muSolve at h
  rw [get_bind, if_pos (by simp [aeroGiven, AeroDict.truthy])] at h
  have h2 : Loads.zero.add { Loads.zero with FL := 1 + 2 * x + 3 * x ^ 2, MY := 4 - x } = L := by
    have := congrArg Prod.fst h
    exact Except.ok.inj this
  rw [← h2, zero_add_loads]
  unfold quadLoads Loads.zero
  simp
  ring

/-- Meets the hypotheses of `C55_stability`: at `alpha = 1` the reported lift slope of the parabola is exact. -/
example : ∃ (D : StabDeriv) (D' : Deriv) (w' : World parabolaB),
    stabilityDerivatives none (World.mk () (some { Vmag := some 2, rho := some 1, alpha := some 1 }) none [] []) = (.ok D, w') ∧
    D.a = some D' ∧ 2 * D'.CL = (2 + 6 * 1) / degree := by
  obtain ⟨D, w', h⟩ := stab_returns (B := parabolaB) rfl rfl (parabola_solves none)
    (w := World.mk () (some { Vmag := some 2, rho := some 1, alpha := some 1 }) none [] []) rfl
    (by simp [AeroDict.truthy]) (by simp [AeroDict.truthy]) (by simp [AeroDict.truthy]) (by simp [AeroDict.truthy])
    (by simp [AeroDict.truthy])
  have h42 := C42_stability_derivatives rfl (by simp [AeroDict.truthy]) h
  obtain ⟨-, -, -, aF, aB, bF, bB, -, -, -, -, h5, -⟩ := h42
  rcases hD : D.a with _ | D'
  · exact absurd (h5.2.1 hD) (by simp [AeroDict.q, curveB])
  · have h55 := (C55_stability rfl (by simp [AeroDict.truthy]) h (D' := D')).1 (fun x L => parabola_quad x L) hD
    refine ⟨D, D', w', h, hD, ?_⟩
    have h1 := h55.CL
    have hu : degree ≠ 0 := by
      unfold degree
      positivity
    have h2 := quad_hasDerivAt 1 2 3 degree 1 0.5 ((2 + 6 * 1) / degree) hu (by norm_num) (by field_simp; norm_num)
    have h3 := h1.unique (f := fun t => (1:ℝ) + 2 * (t / degree) + 3 * (t / degree) ^ 2) (by simpa using h2)
    simp only [AeroDict.q, curveB, Option.getD_some] at h3
    linarith

end Verif
