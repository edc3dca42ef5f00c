import Verif.Spec.AeroCenter
import Verif.Model.AeroCenter
import Verif.Lemmas.MUFrame
import Verif.Thm.MUTarget
import Verif.Examples.FlatDerivs
import Verif.Examples.LineBackend
import Mathlib.LinearAlgebra.Matrix.ToLinearEquiv

/-!
# The regressions of `find_aero_center` (C57)
-/

namespace Verif
open Act V3 Matrix

/-! ### Sums -/

theorem sumOver_congr {S : List ACPoint} {f g : ACPoint → ℝ} (h : ∀ p ∈ S, f p = g p) : sumOver S f = sumOver S g := by
  unfold sumOver
  rw [List.map_congr_left h]

theorem sumOver_add (S : List ACPoint) (f g : ACPoint → ℝ) :
    sumOver S (fun p => f p + g p) = sumOver S f + sumOver S g := by
  unfold sumOver
  exact List.sum_map_add

theorem sumOver_mul (S : List ACPoint) (c : ℝ) (f : ACPoint → ℝ) : sumOver S (fun p => c * f p) = c * sumOver S f := by
  unfold sumOver
  induction S with
  | nil => simp
  | cons a S ih => simp only [List.map_cons, List.sum_cons, ih]; ring

theorem sumOver_one (S : List ACPoint) : sumOver S (fun _ => 1) = S.length := by
  unfold sumOver
  simp

theorem sumOver_sq {S : List ACPoint} {f : ACPoint → ℝ} (h : sumOver S (fun p => f p ^ 2) = 0) : ∀ p ∈ S, f p = 0 := by
  unfold sumOver at h
  induction S with
  | nil => simp
  | cons a S ih =>
    simp only [List.map_cons, List.sum_cons] at h
    have h1 : 0 ≤ (S.map fun p => f p ^ 2).sum := List.sum_nonneg (by
      intro x hx
      obtain ⟨p, -, rfl⟩ := List.mem_map.1 hx
      positivity)
    have h2 := sq_nonneg (f a)
    intro p hp
    rcases List.mem_cons.1 hp with rfl | hp
    · exact pow_eq_zero_iff (two_ne_zero) |>.1 (by linarith)
    · exact ih (by linarith) p hp

private theorem sum_sq (S : List ACPoint) (x y : ℝ) : sumOver S (fun p => (x * Real.sin p.a + y * Real.cos p.a) ^ 2) =
    x ^ 2 * sumOver S (fun p => Real.sin p.a * Real.sin p.a) + (2 * x * y) * sumOver S (fun p => Real.sin p.a * Real.cos p.a) +
    y ^ 2 * sumOver S (fun p => Real.cos p.a * Real.cos p.a) := by
  simp only [← sumOver_mul, ← sumOver_add]
  exact sumOver_congr fun p _ => by ring

/-! ### The three fits, for arbitrary samples -/

/-- the lift fit recovers the zero-lift angle, for every sample with two directions that are not parallel -/
theorem C57_fit_lift {S : List ACPoint} {A t : ℝ} (hA : A ≠ 0) (hS : ∀ p ∈ S, p.CL = A * (Real.sin p.a - Real.tan t * Real.cos p.a))
    (ht : -(Real.pi / 2) < t ∧ t < Real.pi / 2)
    (hd : ∃ p ∈ S, ∃ q ∈ S, Real.sin (p.a - q.a) ≠ 0) : fitAL0 S = some t ∧ fitSlope S t = some A := by
  set SS := sumOver S fun p => Real.sin p.a * Real.sin p.a with hSS
  set SC := sumOver S fun p => Real.sin p.a * Real.cos p.a with hSC
  set CC := sumOver S fun p => Real.cos p.a * Real.cos p.a with hCC
  set T := Real.tan t with hT
  have e1 : sumOver S (fun p => p.CL * Real.cos p.a) = A * SC + (-A * T) * CC := by
    rw [hSC, hCC, ← sumOver_mul, ← sumOver_mul, ← sumOver_add]
    refine sumOver_congr fun p hp => ?_
    rw [hS p hp]
    ring
  have e2 : sumOver S (fun p => p.CL * Real.sin p.a) = A * SS + (-A * T) * SC := by
    rw [hSS, hSC, ← sumOver_mul, ← sumOver_mul, ← sumOver_add]
    refine sumOver_congr fun p hp => ?_
    rw [hS p hp]
    ring
  have hdet : SC * SC - SS * CC ≠ 0 := by
    intro h0
    have hz : sumOver S (fun p => (CC * Real.sin p.a + (-SC) * Real.cos p.a) ^ 2) = 0 := by
      have : sumOver S (fun p => (CC * Real.sin p.a + (-SC) * Real.cos p.a) ^ 2) =
          CC ^ 2 * SS + (-2 * CC * SC) * SC + SC ^ 2 * CC := by
        rw [sum_sq]
        ring
      rw [this]
      linear_combination (-CC) * h0
    have hz := sumOver_sq hz
    obtain ⟨p, hp, q, hq, hpq⟩ := hd
    have hp1 := hz p hp
    have hq1 := hz q hq
    rw [Real.sin_sub] at hpq
    have hCC0 : CC = 0 := by
      by_contra hne
      apply hpq
      have : CC * (Real.sin p.a * Real.cos q.a - Real.cos p.a * Real.sin q.a) = 0 := by
        linear_combination Real.cos q.a * hp1 - Real.cos p.a * hq1
      exact (mul_eq_zero.1 this).resolve_left hne
    have hc : sumOver S (fun p => Real.cos p.a ^ 2) = 0 := by
      rw [← hCC0, hCC]
      exact sumOver_congr fun p _ => by ring
    have hc := sumOver_sq hc
    rw [hc p hp, hc q hq] at hpq
    simp at hpq
  constructor
  · unfold fitAL0
    simp only
    rw [e1, e2]
    rw [if_neg]
    · have : ((A * SC + -A * T * CC) * SS - (A * SS + -A * T * SC) * SC) /
          ((A * SC + -A * T * CC) * SC - (A * SS + -A * T * SC) * CC) = T := by
        have h1 : (A * SC + -A * T * CC) * SC - (A * SS + -A * T * SC) * CC = A * (SC * SC - SS * CC) := by ring
        rw [h1, div_eq_iff (mul_ne_zero hA hdet)]
        ring
      rw [this, hT, Real.arctan_tan ht.1 ht.2]
    · have h1 : (A * SC + -A * T * CC) * SC - (A * SS + -A * T * SC) * CC = A * (SC * SC - SS * CC) := by ring
      rw [h1]
      exact mul_ne_zero hA hdet
  · have hne : sumOver S (fun p => (Real.sin p.a - T * Real.cos p.a) ^ 2) ≠ 0 := by
      intro h0
      have hz := sumOver_sq h0
      obtain ⟨p, hp, q, hq, hpq⟩ := hd
      apply hpq
      rw [Real.sin_sub]
      linear_combination Real.cos q.a * hz p hp - Real.cos p.a * hz q hq
    unfold fitSlope
    simp only
    rw [if_neg hne]
    congr 1
    rw [div_eq_iff hne, ← sumOver_mul]
    refine sumOver_congr fun p hp => ?_
    rw [hS p hp]
    ring

/-- normal equations of functions that are linearly independent on the sample are non-singular -/
theorem gram_det (S : List ACPoint) (u0 u1 u2 : ACPoint → ℝ)
    (hi : ∀ a b c : ℝ, (∀ p ∈ S, a * u0 p + b * u1 p + c * u2 p = 0) → a = 0 ∧ b = 0 ∧ c = 0)
    {M : Matrix (Fin 3) (Fin 3) ℝ}
    (hM : M = !![sumOver S fun p => u0 p * u0 p, sumOver S fun p => u0 p * u1 p, sumOver S fun p => u0 p * u2 p;
                 sumOver S fun p => u0 p * u1 p, sumOver S fun p => u1 p * u1 p, sumOver S fun p => u1 p * u2 p;
                 sumOver S fun p => u0 p * u2 p, sumOver S fun p => u1 p * u2 p, sumOver S fun p => u2 p * u2 p]) :
    M.det ≠ 0 := by
  intro h0
  obtain ⟨v, hv, hMv⟩ := Matrix.exists_mulVec_eq_zero_iff.2 h0
  rw [hM] at hMv
  have r0 := congrFun hMv 0
  have r1 := congrFun hMv 1
  have r2 := congrFun hMv 2
  simp [Matrix.mulVec, dotProduct, Fin.sum_univ_three] at r0 r1 r2
  have hz : sumOver S (fun p => (v 0 * u0 p + v 1 * u1 p + v 2 * u2 p) ^ 2) = 0 := by
    have : sumOver S (fun p => (v 0 * u0 p + v 1 * u1 p + v 2 * u2 p) ^ 2) =
        v 0 ^ 2 * sumOver S (fun p => u0 p * u0 p) + v 1 ^ 2 * sumOver S (fun p => u1 p * u1 p) +
        v 2 ^ 2 * sumOver S (fun p => u2 p * u2 p) + (2 * v 0 * v 1) * sumOver S (fun p => u0 p * u1 p) +
        (2 * v 0 * v 2) * sumOver S (fun p => u0 p * u2 p) + (2 * v 1 * v 2) * sumOver S (fun p => u1 p * u2 p) := by
      simp only [← sumOver_mul, ← sumOver_add]
      exact sumOver_congr fun p _ => by ring
    rw [this]
    linear_combination v 0 * r0 + v 1 * r1 + v 2 * r2
  obtain ⟨h1, h2, h3⟩ := hi _ _ _ (sumOver_sq hz)
  apply hv
  ext i
  fin_cases i <;> assumption

/-- exact right-hand sides give exact solutions -/
theorem solve3_exact {M : Matrix (Fin 3) (Fin 3) ℝ} {r v : Fin 3 → ℝ} (hd : M.det ≠ 0) (hr : r = M *ᵥ v) :
    solve3 M r = some v := by
  unfold solve3
  rw [if_neg hd, hr, Matrix.mulVec_mulVec, Matrix.nonsing_inv_mul _ (isUnit_iff_ne_zero.2 hd), Matrix.one_mulVec]

/-- the drag fit recovers the polar, for every sample on which `1`, `CL` and `CL²` are independent -/
theorem C57_fit_drag {S : List ACPoint} {k0 k1 k2 : ℝ} (hS : ∀ p ∈ S, p.CD = k0 + k1 * p.CL + k2 * p.CL ^ 2)
    (hi : ∀ a b c : ℝ, (∀ p ∈ S, a + b * p.CL + c * p.CL ^ 2 = 0) → a = 0 ∧ b = 0 ∧ c = 0) :
    fitDrag S = some ![k0, k1, k2] := by
  unfold fitDrag
  simp only
  apply solve3_exact
  · refine gram_det S (fun _ => 1) (fun p => p.CL) (fun p => p.CL ^ 2)
      (fun a b c h => hi a b c fun p hp => by rw [← h p hp]; ring) ?_
    rw [← sumOver_one]
    congr 1
    have h2 : sumOver S (fun p => p.CL * p.CL) = sumOver S (fun p => 1 * p.CL ^ 2) := sumOver_congr fun _ _ => by ring
    have h3 : sumOver S (fun p => p.CL * p.CL * p.CL) = sumOver S (fun p => p.CL * p.CL ^ 2) :=
      sumOver_congr fun _ _ => by ring
    have h4 : sumOver S (fun p => p.CL * p.CL * p.CL * p.CL) = sumOver S (fun p => p.CL ^ 2 * p.CL ^ 2) :=
      sumOver_congr fun _ _ => by ring
    have h2' : sumOver S (fun p => 1 * p.CL ^ 2) = sumOver S (fun p => p.CL * p.CL) := h2.symm
    rw [h3, h4, h2']
    simp only [one_mul]
  · have f0 : sumOver S (fun p => p.CD) = k0 * S.length + k1 * sumOver S (fun p => p.CL) +
        k2 * sumOver S (fun p => p.CL * p.CL) := by
      rw [← sumOver_one]
      simp only [← sumOver_mul, ← sumOver_add]
      exact sumOver_congr fun p hp => by rw [hS p hp]; ring
    have f1 : sumOver S (fun p => p.CD * p.CL) = k0 * sumOver S (fun p => p.CL) + k1 * sumOver S (fun p => p.CL * p.CL) +
        k2 * sumOver S (fun p => p.CL * p.CL * p.CL) := by
      simp only [← sumOver_mul, ← sumOver_add]
      exact sumOver_congr fun p hp => by rw [hS p hp]; ring
    have f2 : sumOver S (fun p => p.CD * p.CL * p.CL) = k0 * sumOver S (fun p => p.CL * p.CL) +
        k1 * sumOver S (fun p => p.CL * p.CL * p.CL) + k2 * sumOver S (fun p => p.CL * p.CL * p.CL * p.CL) := by
      simp only [← sumOver_mul, ← sumOver_add]
      exact sumOver_congr fun p hp => by rw [hS p hp]; ring
    rw [f0, f1, f2]
    ext i
    fin_cases i <;> simp [Matrix.mulVec, dotProduct, Fin.sum_univ_three] <;> ring

theorem solve3_some {M : Matrix (Fin 3) (Fin 3) ℝ} {r v u : Fin 3 → ℝ} (h : solve3 M r = some u) (hr : r = M *ᵥ v) :
    u = v := by
  by_cases hd : M.det = 0
  · unfold solve3 at h
    rw [if_pos hd] at h
    cases h
  · rw [solve3_exact hd hr] at h
    exact (Option.some.inj h).symm

private theorem moment_rhs {S : List ACPoint} {k0 k1 k2 : ℝ}
    (hS : ∀ p ∈ S, p.Cm = k0 * Real.sin (2 * p.a) + k1 * p.CN + k2 * p.CA) :
    ![sumOver S fun p => p.Cm * Real.sin (2 * p.a), sumOver S fun p => p.Cm * p.CN, sumOver S fun p => p.Cm * p.CA] =
    !![sumOver S fun p => Real.sin (2 * p.a) * Real.sin (2 * p.a), sumOver S fun p => Real.sin (2 * p.a) * p.CN,
        sumOver S fun p => Real.sin (2 * p.a) * p.CA;
       sumOver S fun p => Real.sin (2 * p.a) * p.CN, sumOver S fun p => p.CN * p.CN, sumOver S fun p => p.CN * p.CA;
       sumOver S fun p => Real.sin (2 * p.a) * p.CA, sumOver S fun p => p.CN * p.CA, sumOver S fun p => p.CA * p.CA] *ᵥ
      ![k0, k1, k2] := by
  have f0 : sumOver S (fun p => p.Cm * Real.sin (2 * p.a)) = k0 * sumOver S (fun p => Real.sin (2 * p.a) * Real.sin (2 * p.a)) +
      k1 * sumOver S (fun p => Real.sin (2 * p.a) * p.CN) + k2 * sumOver S (fun p => Real.sin (2 * p.a) * p.CA) := by
    simp only [← sumOver_mul, ← sumOver_add]
    exact sumOver_congr fun p hp => by rw [hS p hp]; ring
  have f1 : sumOver S (fun p => p.Cm * p.CN) = k0 * sumOver S (fun p => Real.sin (2 * p.a) * p.CN) +
      k1 * sumOver S (fun p => p.CN * p.CN) + k2 * sumOver S (fun p => p.CN * p.CA) := by
    simp only [← sumOver_mul, ← sumOver_add]
    exact sumOver_congr fun p hp => by rw [hS p hp]; ring
  have f2 : sumOver S (fun p => p.Cm * p.CA) = k0 * sumOver S (fun p => Real.sin (2 * p.a) * p.CA) +
      k1 * sumOver S (fun p => p.CN * p.CA) + k2 * sumOver S (fun p => p.CA * p.CA) := by
    simp only [← sumOver_mul, ← sumOver_add]
    exact sumOver_congr fun p hp => by rw [hS p hp]; ring
  rw [f0, f1, f2]
  ext i
  fin_cases i <;> simp [Matrix.mulVec, dotProduct, Fin.sum_univ_three] <;> ring

/-- the moment fit recovers the coefficients, for every sample on which `sin 2a`, `CN` and `CA` are independent -/
theorem C57_fit_moment {S : List ACPoint} {k0 k1 k2 : ℝ}
    (hS : ∀ p ∈ S, p.Cm = k0 * Real.sin (2 * p.a) + k1 * p.CN + k2 * p.CA)
    (hi : ∀ a b c : ℝ, (∀ p ∈ S, a * Real.sin (2 * p.a) + b * p.CN + c * p.CA = 0) → a = 0 ∧ b = 0 ∧ c = 0) :
    fitMoment S = some ![k0, k1, k2] := by
  unfold fitMoment
  exact solve3_exact (gram_det S (fun p => Real.sin (2 * p.a)) (fun p => p.CN) (fun p => p.CA) hi rfl) (moment_rhs hS)

/-! ### The sweep -/

variable {ι : Type} {B : Backend ι} {ps : Option B.π}

/-- what a completed sweep computed -/
theorem acSweep_ok {d : AeroDict ι} {c : Option CtrlDict} {xs : List ℝ} {w w' : World B} {d1 : AeroDict ι} {a0 : Option ℝ}
    {rows : List (ℝ × Loads)} (hd : w.aero = some d1) (hs : SameEntries B { d with alpha := a0 } d1) (hc : w.ctrl = c)
    (h : acSweep ps xs w = (.ok rows, w')) :
    rows.map Prod.fst = xs ∧ (∀ r ∈ rows, SolvedAt ps { d with alpha := some r.1 } c r.2) ∧ w'.ctrl = c ∧ w'.files = w.files ∧
    ∃ d2, w'.aero = some d2 ∧ SameEntries B { d with alpha := (xs.getLast?).or a0 } d2 := by
  induction xs generalizing w d1 a0 rows with
  | nil =>
    cases h
    exact ⟨rfl, by simp, hc, rfl, d1, hd, by simpa using hs⟩
  | cons x xs ih =>
    unfold acSweep at h
    rw [bind_of_ok (show setAlpha _ _ = _ from setAero_some hd)] at h
    replace h := bind_ok.1 h
    obtain ⟨r, w1, h1, h⟩ := h
    replace h := bind_ok.1 h
    obtain ⟨rs, w2, h2, h⟩ := h
    cases h
    obtain ⟨d2, hd2, hs2⟩ := muSolve_aero (w := { w with aero := some { d1 with alpha := some x } }) rfl h1
    have hs1 : SameEntries B { d with alpha := some x } { d1 with alpha := some x } := hs.setAlpha x
    obtain ⟨g1, g2, g3, g4, d3, g5, g6⟩ := ih hd2 (hs1.trans hs2) ((muSolve_ctrl h1).trans hc) h2
    refine ⟨by simp [g1], ?_, g3, ?_, d3, g5, ?_⟩
    · intro r' hr'
      rcases List.mem_cons.1 hr' with rfl | hr'
      · exact ⟨{ w with aero := some { d1 with alpha := some x } }, _, _, rfl, hs1, hc, h1⟩
      · exact g2 r' hr'
    · rw [g4]
      exact muSolve_files (w := { w with aero := some { d1 with alpha := some x } }) h1
    · rw [List.getLast?_cons]
      rcases hx : xs.getLast? with _ | y <;> rw [hx] at g6 <;> simpa [hx] using g6

/-- a sweep over angles at which `solve` succeeds completes -/
theorem acSweep_runs {d : AeroDict ι} {c : Option CtrlDict} {F : ℝ → Loads} (hF : LoadCurve ps d c F) {xs : List ℝ}
    (hx : ∀ x ∈ xs, -10 ≤ x ∧ x < 10) {w : World B} {d1 : AeroDict ι} {a0 : Option ℝ}
    (hd : w.aero = some d1) (hs : SameEntries B { d with alpha := a0 } d1) (hc : w.ctrl = c) :
    ∃ w', acSweep ps xs w = (.ok (xs.map fun x => (x, F x)), w') := by
  induction xs generalizing w d1 a0 with
  | nil => exact ⟨w, rfl⟩
  | cons x xs ih =>
    have hs1 : SameEntries B { d with alpha := some x } { d1 with alpha := some x } := hs.setAlpha x
    obtain ⟨w1, h1⟩ := hF x { w with aero := some { d1 with alpha := some x } } _ (hx x (by simp)).1 (hx x (by simp)).2 rfl hs1 hc
    obtain ⟨d2, hd2, hs2⟩ := muSolve_aero (w := { w with aero := some { d1 with alpha := some x } }) rfl h1
    obtain ⟨w2, h2⟩ := ih (fun y hy => hx y (by simp [hy])) hd2 (hs1.trans hs2) ((muSolve_ctrl h1).trans hc)
    refine ⟨w2, ?_⟩
    unfold acSweep
    rw [bind_of_ok (show setAlpha _ _ = _ from setAero_some hd), bind_of_ok h1, bind_of_ok h2]
    rfl

theorem acAngles_mem {x : ℝ} (h : x ∈ acAngles) : -10 ≤ x ∧ x < 10 := by
  unfold acAngles at h
  obtain ⟨k, hk, rfl⟩ := List.mem_map.1 h
  have h1 : (k : ℝ) < 400 := by exact_mod_cast List.mem_range.1 hk
  have h2 : (0 : ℝ) ≤ k := Nat.cast_nonneg k
  constructor <;> linarith

theorem acAngles_last : acAngles.getLast? = some 9.95 := by
  unfold acAngles
  rw [List.getLast?_map, List.getLast?_range]
  norm_num

theorem orRaise_ok {S α : Type} {e : PyErr} {o : Option α} {s s' : S} {a : α} (h : Act.orRaise e o s = (.ok a, s')) :
    o = some a ∧ s' = s := by
  cases o with
  | none => cases h
  | some b => cases h; exact ⟨rfl, rfl⟩

/-- what a successful run of `find_aero_center` did -/
theorem acBody_ok {w w' : World B} {d : AeroDict ι} {cg p : V3} (hd : w.aero = some d) (h : acBody ps cg w = (.ok p, w')) :
    ∃ (rows : List (ℝ × Loads)) (aL0 A : ℝ) (cd cm : Fin 3 → ℝ), rows.map Prod.fst = acAngles ∧ (∀ r ∈ rows, SolvedAt ps { d with alpha := some r.1 } w.ctrl r.2) ∧
      dynPress B d ≠ 0 ∧ B.long ≠ 0 ∧ fitMoment (rows.map (acPoint (dynPress B d) B.long)) = some cm ∧
      acLoc B.long (d.alpha.getD 0) aL0 A cd cm cg = some p ∧ w'.ctrl = w.ctrl ∧ w'.files = w.files ∧
      ∃ d2, w'.aero = some d2 ∧ SameEntries B { d with alpha := some 9.95 } d2 := by
  unfold acBody at h
  rw [bind_of_ok (getAero_some hd)] at h
  replace h := bind_ok.1 h
  obtain ⟨DP, w0, h0, h⟩ := h
  have hDP : DP = dynPress B d ∧ w0 = w := by
    unfold dynPressure at h0
    split_ifs at h0
    · rw [getAero_some hd] at h0
      simp only [Prod.mk.injEq, Except.ok.injEq] at h0
      exact ⟨h0.1.symm, h0.2.symm⟩
    · cases h0
  obtain ⟨rfl, rfl⟩ := hDP
  replace h := bind_ok.1 h
  obtain ⟨rows, w1, h1, h⟩ := h
  obtain ⟨g1, g2, g3, g4, d2, g5, g6⟩ := acSweep_ok (d := d) (a0 := d.alpha) hd (SameEntries.refl _) rfl h1
  split_ifs at h with hz
  · cases h
  push Not at hz
  replace h := bind_ok.1 h
  obtain ⟨aL0, _, h2, h⟩ := h
  obtain ⟨h2, rfl⟩ := orRaise_ok h2
  replace h := bind_ok.1 h
  obtain ⟨A, _, h3, h⟩ := h
  obtain ⟨h3, rfl⟩ := orRaise_ok h3
  replace h := bind_ok.1 h
  obtain ⟨cd, _, h4, h⟩ := h
  obtain ⟨h4, rfl⟩ := orRaise_ok h4
  replace h := bind_ok.1 h
  obtain ⟨cm, _, h5, h⟩ := h
  obtain ⟨k5, e5⟩ := orRaise_ok h5
  obtain ⟨k6, e6⟩ := orRaise_ok h
  subst e5 e6
  refine ⟨rows, aL0, A, cd, cm, g1, g2, hz.1, hz.2, k5, k6, g3, g4, d2, g5, ?_⟩
  rw [acAngles_last] at g6
  exact g6

/-- a successful call of `find_aero_center` with a non-empty `aero_state` -/
theorem findAeroCenter_ok {w w' : World B} {d : AeroDict ι} {cg p : V3} {f : Option String} (hd : w.aero = some d)
    (ht : d.truthy = true) (h : findAeroCenter ps cg f w = (.ok p, w')) :
    ∃ w1, acBody ps cg w = (.ok p, w1) ∧ w'.aero = w1.aero ∧ w'.ctrl = w1.ctrl ∧
      w'.files = w1.files ++ (f.toList.map fun n => (n, Doc.center p.x p.z)) := by
  unfold findAeroCenter at h
  rw [get_bind, if_pos (by simp [aeroGiven, hd, ht])] at h
  replace h := bind_ok.1 h
  obtain ⟨r, w1, h1, h⟩ := h
  replace h := bind_ok.1 h
  obtain ⟨_, w2, h2, h⟩ := h
  cases h
  refine ⟨w1, h1, ?_⟩
  cases f with
  | none => cases h2; simp
  | some n => cases h2; simp

/-- **C57, point of action.** If, at every angle of attack, the pitching moment is that of the aerodynamic force acting at
the fixed point `(x, 0, z)` relative to the centre of gravity, then whenever `find_aero_center` returns it returns that
point; whatever the lift and drag. -/
theorem C57_point_of_action {w w' : World B} {d : AeroDict ι} {cg p : V3} {f : Option String} {x z : ℝ}
    (hd : w.aero = some d) (ht : d.truthy = true)
    (hM : ∀ a L, -10 ≤ a → a < 10 → SolvedAt ps { d with alpha := some a } w.ctrl L → L.MY = z * L.FX - x * L.FZ)
    (h : findAeroCenter ps cg f w = (.ok p, w')) : p = ⟨cg.x + x, 0, cg.z + z⟩ := by
  obtain ⟨w1, h1, -⟩ := findAeroCenter_ok hd ht h
  obtain ⟨rows, aL0, A, cd, cm, g1, g2, hDP, hl, hm, hloc, -⟩ := acBody_ok hd h1
  have hS : ∀ q ∈ rows.map (acPoint (dynPress B d) B.long), q.Cm =
      0 * Real.sin (2 * q.a) + x / B.long * q.CN + (-z / B.long) * q.CA := by
    intro q hq
    obtain ⟨r, hr, rfl⟩ := List.mem_map.1 hq
    have hr1 : r.1 ∈ acAngles := by
      rw [← g1]
      exact List.mem_map_of_mem hr
    have := hM r.1 r.2 (acAngles_mem hr1).1 (acAngles_mem hr1).2 (g2 r hr)
    simp only [acPoint, this]
    field_simp
    ring
  unfold fitMoment at hm
  have := solve3_some hm (moment_rhs hS)
  subst this
  unfold acLoc at hloc
  simp only at hloc
  split_ifs at hloc with h0
  rw [← Option.some.inj hloc]
  ext <;> simp <;> field_simp <;> ring

/-- **C57.** If lift, drag and moment follow a model of the forms `find_aero_center` assumes, with coefficients for which the
normal equations are not singular, then `find_aero_center` returns the centre of exactly that model.  The angle of attack it
leaves in the `aero_state` is 9.95. -/
theorem C57_recovers {w : World B} {d : AeroDict ι} {cg : V3} {f : Option String} {m : PolarModel} {F : ℝ → Loads}
    (hd : w.aero = some d) (ht : d.truthy = true) (hW : B.hasWings = true) (hq : d.q * B.Sw ≠ 0) (hl : B.long ≠ 0)
    (hF : LoadCurve ps d w.ctrl F) (hm : FollowsModel F m (d.q * B.Sw) B.long) (hA : m.A ≠ 0)
    (haL : -(Real.pi / 2) < m.aL0 ∧ m.aL0 < Real.pi / 2) (hden : 2 * m.A + 3 * m.CD0 - 2 * m.CD2 * m.A ^ 2 ≠ 0)
    (hCL : ∀ a b c : ℝ, (∀ x ∈ acAngles, a + b * m.CL (x * degree) + c * m.CL (x * degree) ^ 2 = 0) → a = 0 ∧ b = 0 ∧ c = 0)
    (hCm : ∀ a b c : ℝ, (∀ x ∈ acAngles, a * Real.sin (2 * (x * degree)) + b * m.CN (x * degree) + c * m.CA (x * degree) = 0) →
      a = 0 ∧ b = 0 ∧ c = 0) :
    (findAeroCenter ps cg f w).1 = .ok ⟨(m.center B.long (d.alpha.getD 0 * degree)).x + cg.x, 0,
      (m.center B.long (d.alpha.getD 0 * degree)).z + cg.z⟩ ∧
    ∃ d', (findAeroCenter ps cg f w).2.aero = some d' ∧ d'.alpha = some 9.95 := by
  obtain ⟨w1, h1⟩ := acSweep_runs hF (xs := acAngles) (fun x hx => acAngles_mem hx) hd (a0 := d.alpha) (SameEntries.refl _) rfl
  have hDP : dynPress B d = d.q * B.Sw := dynPress_eq _
  have hrad : ∀ x, rad x = x * degree := fun x => by unfold rad degree; ring
  set S := (acAngles.map fun x => (x, F x)).map (acPoint (d.q * B.Sw) B.long) with hSdef
  have hS : ∀ p ∈ S, ∃ x ∈ acAngles, p.a = x * degree ∧ p.CN = m.CN (x * degree) ∧ p.CA = m.CA (x * degree) ∧
      p.Cm = m.Cm (x * degree) ∧ p.CL = m.CL (x * degree) ∧ p.CD = m.CD (x * degree) := by
    intro p hp
    rw [hSdef, List.map_map] at hp
    obtain ⟨x, hx, rfl⟩ := List.mem_map.1 hp
    obtain ⟨m1, m2, m3⟩ := hm x
    have e1 : ((acPoint (d.q * B.Sw) B.long ∘ fun x => (x, F x)) x).CN = m.CN (x * degree) := by
      simp only [Function.comp, acPoint, m1]
      exact mul_div_cancel_left₀ _ hq
    have e2 : ((acPoint (d.q * B.Sw) B.long ∘ fun x => (x, F x)) x).CA = m.CA (x * degree) := by
      simp only [Function.comp, acPoint, m2]
      exact mul_div_cancel_left₀ _ hq
    refine ⟨x, hx, hrad x, e1, e2, ?_, ?_, ?_⟩
    · simp only [Function.comp, acPoint, m3]
      rw [mul_assoc, mul_div_cancel_left₀ _ hq, mul_div_cancel_left₀ _ hl]
    · unfold ACPoint.CL
      rw [e1, e2]
      simp only [Function.comp, acPoint, hrad, PolarModel.CN, PolarModel.CA]
      have := Real.sin_sq_add_cos_sq (x * degree)
      linear_combination m.CL (x * degree) * this
    · unfold ACPoint.CD
      rw [e1, e2]
      simp only [Function.comp, acPoint, hrad, PolarModel.CN, PolarModel.CA]
      have := Real.sin_sq_add_cos_sq (x * degree)
      linear_combination m.CD (x * degree) * this
  have hS' : ∀ x ∈ acAngles, ∃ p ∈ S, p.a = x * degree ∧ p.CN = m.CN (x * degree) ∧ p.CA = m.CA (x * degree) := by
    intro x hx
    obtain ⟨m1, m2, m3⟩ := hm x
    refine ⟨acPoint (d.q * B.Sw) B.long (x, F x), ?_, hrad x, ?_, ?_⟩
    · rw [hSdef]
      exact List.mem_map_of_mem (List.mem_map_of_mem (f := fun x => (x, F x)) hx)
    · simp only [acPoint, m1]
      exact mul_div_cancel_left₀ _ hq
    · simp only [acPoint, m2]
      exact mul_div_cancel_left₀ _ hq
  have hS2 : ∀ x ∈ acAngles, ∃ p ∈ S, p.a = x * degree ∧ p.CN = m.CN (x * degree) ∧ p.CA = m.CA (x * degree) ∧
      p.CL = m.CL (x * degree) := by
    intro x hx
    obtain ⟨p, hp, e1, e2, e3⟩ := hS' x hx
    refine ⟨p, hp, e1, e2, e3, ?_⟩
    unfold ACPoint.CL
    rw [e1, e2, e3, PolarModel.CN, PolarModel.CA]
    have := Real.sin_sq_add_cos_sq (x * degree)
    linear_combination m.CL (x * degree) * this
  have m0 : (0 : ℝ) ∈ acAngles := List.mem_map.2 ⟨200, by simp, by norm_num⟩
  have m9 : (9 : ℝ) ∈ acAngles := List.mem_map.2 ⟨380, by simp, by norm_num⟩
  obtain ⟨fa, fs⟩ := C57_fit_lift (S := S) (t := m.aL0) hA (fun p hp => by
      obtain ⟨x, hx, e1, -, -, -, e5, -⟩ := hS p hp
      rw [e5, e1]
      rfl) haL (by
      obtain ⟨p, hp, e1, -⟩ := hS2 9 m9
      obtain ⟨q, hq, e2, -⟩ := hS2 0 m0
      refine ⟨p, hp, q, hq, ?_⟩
      rw [e1, e2]
      refine (Real.sin_pos_of_pos_of_lt_pi ?_ ?_).ne' <;> unfold degree <;> linarith [Real.pi_pos])
  have fd := C57_fit_drag (S := S) (k0 := m.CD0) (k1 := m.CD1) (k2 := m.CD2) (fun p hp => by
      obtain ⟨x, hx, -, -, -, -, e5, e6⟩ := hS p hp
      rw [e5, e6]
      rfl) (fun a b c h => hCL a b c fun x hx => by
      obtain ⟨p, hp, -, -, -, e⟩ := hS2 x hx
      rw [← e]
      exact h p hp)
  have fm := C57_fit_moment (S := S) (k0 := m.c1) (k1 := m.c2) (k2 := m.c3) (fun p hp => by
      obtain ⟨x, hx, e1, e2, e3, e4, -⟩ := hS p hp
      rw [e1, e2, e3, e4]
      rfl) (fun a b c h => hCm a b c fun x hx => by
      obtain ⟨p, hp, e1, e2, e3, -⟩ := hS2 x hx
      rw [← e2, ← e3, ← e1]
      exact h p hp)
  have hloc : acLoc B.long (d.alpha.getD 0) m.aL0 m.A ![m.CD0, m.CD1, m.CD2] ![m.c1, m.c2, m.c3] cg =
      some ⟨(m.center B.long (d.alpha.getD 0 * degree)).x + cg.x, 0, (m.center B.long (d.alpha.getD 0 * degree)).z + cg.z⟩ := by
    unfold acLoc
    simp only
    rw [if_neg]
    · congr 1
      have hd' : 2 * m.A + 3 * m.CD0 - 2 * m.CD2 * m.A * m.A = 2 * m.A + 3 * m.CD0 - 2 * m.CD2 * m.A ^ 2 := by ring
      ext
      · simp only [PolarModel.center, hrad, Matrix.cons_val_zero, Matrix.cons_val_one, Matrix.cons_val]
        rw [hd']
        ring
      · rfl
      · simp only [PolarModel.center, hrad, Matrix.cons_val_zero, Matrix.cons_val_one, Matrix.cons_val]
        rw [hd']
    · simp only [Matrix.cons_val_zero, Matrix.cons_val]
      rw [not_or]
      exact ⟨hA, by convert hden using 2; ring⟩
  have hbody : acBody ps cg w = (.ok ⟨(m.center B.long (d.alpha.getD 0 * degree)).x + cg.x, 0,
      (m.center B.long (d.alpha.getD 0 * degree)).z + cg.z⟩, w1) := by
    unfold acBody
    rw [bind_of_ok (getAero_some hd), bind_of_ok (dynPressure_returns hW hd), bind_of_ok h1]
    rw [hDP, if_neg (by simp [hq, hl])]
    rw [← hSdef, fa, bind_of_ok (show Act.orRaise _ (some m.aL0) w1 = (.ok m.aL0, w1) from rfl), fs,
      bind_of_ok (show Act.orRaise _ (some m.A) w1 = (.ok m.A, w1) from rfl), fd, fm]
    exact congrArg (fun o => Act.orRaise .nonfinite o w1) hloc
  have hfile : ∃ w2, findAeroCenter ps cg f w = (.ok ⟨(m.center B.long (d.alpha.getD 0 * degree)).x + cg.x, 0,
      (m.center B.long (d.alpha.getD 0 * degree)).z + cg.z⟩, w2) := by
    unfold findAeroCenter
    rw [get_bind, if_pos (by simp [aeroGiven, hd, ht]), bind_of_ok hbody]
    cases f with
    | none => exact ⟨_, rfl⟩
    | some n => exact ⟨_, rfl⟩
  obtain ⟨w2, hfile⟩ := hfile
  refine ⟨by rw [hfile], ?_⟩
  obtain ⟨w3, g1, g2, -⟩ := findAeroCenter_ok hd ht hfile
  obtain ⟨rows, _, _, _, _, -, -, -, -, -, -, -, -, d2, hd2, hs⟩ := acBody_ok hd g1
  rw [hfile]
  refine ⟨d2, by rw [g2, hd2], ?_⟩
  have := congrArg AeroDict.alpha hs.1
  exact this

/-- **C48 fails for `find_aero_center` too.** Every successful call with an `aero_state` leaves its angle of attack at 9.95
degrees; the other entries and the `control_state` are kept, and the file holds the coordinates returned. -/
theorem C48_aero_center {w w' : World B} {d : AeroDict ι} {cg p : V3} {f : Option String} (hd : w.aero = some d)
    (ht : d.truthy = true) (h : findAeroCenter ps cg f w = (.ok p, w')) :
    (∃ d', w'.aero = some d' ∧ SameEntries B { d with alpha := some 9.95 } d') ∧ w'.ctrl = w.ctrl ∧
    w'.files = w.files ++ (f.toList.map fun n => (n, Doc.center p.x p.z)) := by
  obtain ⟨w1, h1, a1, c1, f1⟩ := findAeroCenter_ok hd ht h
  obtain ⟨_, _, _, _, _, -, -, -, -, -, -, hc, hf, d2, hd2, hs⟩ := acBody_ok hd h1
  exact ⟨⟨d2, by rw [a1, hd2], hs⟩, c1.trans hc, by rw [f1, hf]⟩

/-! ### The hypotheses are met -/

/-- lift `2 sin a`, constant drag coefficient 1, moment `sin 2a + CN` -/
def exPolar : PolarModel := { A := 2, aL0 := 0, CD0 := 1, CD1 := 0, CD2 := 0, c1 := 1, c2 := 1, c3 := 0 }

/-- its loads for a dynamic pressure of 2 and unit area and length -/
noncomputable def exPolarLoads (x : ℝ) : Loads :=
  { Loads.zero with FZ := -(2 * exPolar.CN (x * degree)), FX := -(2 * exPolar.CA (x * degree)), MY := 2 * exPolar.Cm (x * degree) }

theorem loads_curve (F : ℝ → Loads) (ps : Option Unit) (d : AeroDict (Fin 2)) (c : Option CtrlDict) :
    LoadCurve (B := loadsB F) ps d c F := by
  intro x w d' _ _ hd hs _
  have hd' := hs.2 rfl
  subst hd'
  exact loads_solve hd (by simp [AeroDict.truthy])

/-- Meets the hypotheses of `C57_recovers`: the centre found is that of the model. -/
example (f : Option String) :
    (findAeroCenter (B := loadsB exPolarLoads) none ⟨0, 0, 0⟩ f
      (World.mk () (some { Vmag := some 2, rho := some 1, alpha := some 0 }) none [] [])).1 = .ok ⟨12 / 7, 0, 0⟩ := by
  have hpi := Real.pi_pos
  have hsin : ∀ x : ℝ, 0 < x → x < 180 → 0 < Real.sin (x * degree) := by
    intro x h1 h2
    refine Real.sin_pos_of_pos_of_lt_pi ?_ ?_
    · unfold degree
      positivity
    · unfold degree
      nlinarith
  have m0 : (0 : ℝ) ∈ acAngles := List.mem_map.2 ⟨200, by simp, by norm_num⟩
  have m9 : (9 : ℝ) ∈ acAngles := List.mem_map.2 ⟨380, by simp, by norm_num⟩
  have m9' : (-9 : ℝ) ∈ acAngles := List.mem_map.2 ⟨20, by simp, by norm_num⟩
  have m5 : (5 : ℝ) ∈ acAngles := List.mem_map.2 ⟨300, by simp, by norm_num⟩
  have h := (C57_recovers (B := loadsB exPolarLoads) (ps := none) (cg := ⟨0, 0, 0⟩) (f := f) (m := exPolar) (F := exPolarLoads)
    (w := World.mk () (some { Vmag := some 2, rho := some 1, alpha := some 0 }) none [] [])
    (d := { Vmag := some 2, rho := some 1, alpha := some 0 }) rfl (by simp [AeroDict.truthy]) rfl
    (by norm_num [AeroDict.q, loadsB]) (by norm_num [loadsB]) ?_ ?_ (by norm_num [exPolar])
    ⟨by simp [exPolar, hpi], by simp [exPolar, hpi]⟩ (by norm_num [exPolar]) ?_ ?_).1
  · rw [h]
    simp [PolarModel.center, exPolar, loadsB]
    norm_num
  · exact loads_curve _ _ _ _
  · intro x
    simp only [exPolarLoads, AeroDict.q, loadsB, Loads.zero, Option.getD_some]
    refine ⟨?_, ?_, ?_⟩ <;> ring
  · intro a b c hz
    have h9 := hz 9 m9
    have h9' := hz (-9) m9'
    have h0 := hz 0 m0
    have hs := hsin 9 (by norm_num) (by norm_num)
    simp only [PolarModel.CL, exPolar, Real.tan_zero, zero_mul, sub_zero, Real.sin_zero, mul_zero, neg_mul, Real.sin_neg] at h0 h9 h9'
    have ha : a = 0 := by linarith
    have hc : c * Real.sin (9 * degree) ^ 2 = 0 := by nlinarith
    have hc : c = 0 := (mul_eq_zero.1 hc).resolve_right (by positivity)
    have hb : b * Real.sin (9 * degree) = 0 := by
      rw [ha, hc] at h9
      linarith
    exact ⟨ha, (mul_eq_zero.1 hb).resolve_right hs.ne', hc⟩
  · intro a b c hz
    have h9 := hz 9 m9
    have h5 := hz 5 m5
    have h0 := hz 0 m0
    have s9 := hsin 9 (by norm_num) (by norm_num)
    have s5 := hsin 5 (by norm_num) (by norm_num)
    have hcos : Real.cos (9 * degree) < Real.cos (5 * degree) := by
      refine Real.cos_lt_cos_of_nonneg_of_le_pi ?_ ?_ ?_ <;> unfold degree <;> nlinarith
    simp only [PolarModel.CN, PolarModel.CA, PolarModel.CD, PolarModel.CL, exPolar, Real.tan_zero, zero_mul, sub_zero,
      Real.sin_zero, mul_zero, Real.cos_zero, Real.sin_two_mul] at h0 h9 h5
    have hc : c = 0 := by linarith
    rw [hc] at h9 h5
    have e9 : Real.sin (9 * degree) * (2 * (a + b) * Real.cos (9 * degree) + b) = 0 := by linarith
    have e5 : Real.sin (5 * degree) * (2 * (a + b) * Real.cos (5 * degree) + b) = 0 := by linarith
    have e9 := (mul_eq_zero.1 e9).resolve_left s9.ne'
    have e5 := (mul_eq_zero.1 e5).resolve_left s5.ne'
    have hab : (a + b) * (Real.cos (5 * degree) - Real.cos (9 * degree)) = 0 := by linarith
    have hab := (mul_eq_zero.1 hab).resolve_right (by linarith)
    rw [hab] at e9
    refine ⟨by linarith, by linarith, hc⟩

end Verif
