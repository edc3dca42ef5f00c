import Verif.Examples.Prop
import Verif.Thm.PropState

/-!
# Uninitialised section coefficients (C66, C87)
-/

namespace Verif
open V3 Act

variable {ι : Type}

/-- **C66, the part that holds.** Away from zero angle of attack the section lift coefficient does not depend on the previous
contents of the array, and it is a number whenever the shifted angle is not a multiple of pi (above 2°). -/
theorem C66_defined_partial (s : Stn) {a : ℝ} (ha : a ≠ 0) (mem mem' : Option ℝ) :
    sectionCL s mem a = sectionCL s mem' a ∧
    ((0 < a → a - s.dA < rad 2 ∨ Real.sin (a - s.dA) ≠ 0) → (a < 0 → -a - s.dA < rad 2 ∨ Real.sin (-a - s.dA) ≠ 0) →
      ∃ CL, sectionCL s mem a = some CL) := by
  have hl : ∀ CLa A2 as x, (x < rad 2 ∨ Real.sin x ≠ 0) → ∃ l, liftSide CLa A2 as x = some l := by
    intro CLa A2 as x hx
    unfold liftSide
    simp only
    split_ifs with h1 h2
    · exact ⟨_, rfl⟩
    · tauto
    · exact ⟨_, rfl⟩
  unfold sectionCL
  rcases lt_or_gt_of_ne ha with h | h
  · rw [if_neg (by linarith), if_pos h, if_neg (by linarith), if_pos h]
    refine ⟨rfl, fun _ h2 => ?_⟩
    obtain ⟨l, e⟩ := hl s.af.CLa s.A2n s.aStallNeg _ (h2 h)
    exact ⟨_, by rw [e]; rfl⟩
  · rw [if_pos h, if_pos h]
    refine ⟨rfl, fun h1 _ => ?_⟩
    obtain ⟨l, e⟩ := hl s.af.CLa s.A2 s.aStall _ (h1 h)
    exact ⟨_, by rw [e]; rfl⟩

/-- **C66 fails, for one section.** At zero angle of attack the section lift coefficient is whatever the array held before. -/
theorem C66_section_refuted (s : Stn) (mem : Option ℝ) : sectionCL s mem 0 = mem := sectionCL_zero s mem

/-- **C66 fails, for the analysis of a propeller.** The first analysis of a propeller starts with every section at exactly zero angle
of attack.  For every moderate propeller and advance ratio and for all numbers `g` there are memory contents with which the
search for the induced angles stops at once and the section lift coefficients of the result are `g`. -/
theorem C66_refuted {M : PropM ι} {J : ℝ} (h : Mild M J) (g : ℕ → ℝ) {st : PropSt} (h0 : ∀ i, i < M.nodes → st.ei i = 0) :
    ∃ mem, ∀ (simps : List ℝ → List ℝ → ℝ) (fuel : ℕ), ∃ c st', findCoefs M simps (fuel + 1) J { st with mem } = (.ok c, st') ∧
      ∀ i, i < M.nodes → c.alpha i = 0 ∧ c.CL i = g i := by
  obtain ⟨mem, hm⟩ := first_solve h g h0
  refine ⟨mem, fun simps fuel => ?_⟩
  obtain ⟨c, st', h1, -, h2, -⟩ := hm simps fuel
  exact ⟨c, st', h1, fun i hi => ⟨(h2 i hi).2.2.1, (h2 i hi).2.2.2.1⟩⟩

/-- a moderate propeller, at half its pitch -/
example : ∃ M : PropM ℕ, mkPropM (fun _ _ => 0) demoProp 0 none none = .ok M ∧ Mild M 0.5 := by
  obtain ⟨M, h, -⟩ := demo_ok (ι := ℕ) (fun _ _ => 0) 0 none none
  exact ⟨M, h, demo_mild h (by norm_num) (by norm_num)⟩

/-- **C87 fails.** Two runs of the same first analysis of the same propeller, with the same arguments, can return thrusts
of opposite sign: the uninitialised memory decides.  (`simps` may be any quadrature that is positive on positive data and negative on
negative data.) -/
theorem C87_refuted {table : String → ℝ → ℝ} {cg : V3} {units : Option String} {pts : Option (ι → V3)} {M : PropM ι}
    (hM : mkPropM table demoProp cg units pts = .ok M) (simps : List ℝ → List ℝ → ℝ) (fuel : ℕ)
    (hpos : ∀ y0 y1 x0 x1 : ℝ, 0 < y0 → 0 < y1 → x0 < x1 → 0 < simps [y0, y1] [x0, x1])
    (hneg : ∀ y0 y1 x0 x1 : ℝ, y0 < 0 → y1 < 0 → x0 < x1 → simps [y0, y1] [x0, x1] < 0)
    (st : PropSt) (h0 : st.ei = fun _ => 0) :
    ∃ mem mem' o o' st1 st2,
      runProp simps (fuel + 1) M (some { Vmag := some 10, rho := some 0.002 }) [("J", .num 0.5)] { st with mem } = (.ok o, st1) ∧
      runProp simps (fuel + 1) M (some { Vmag := some 10, rho := some 0.002 }) [("J", .num 0.5)] { st with mem := mem' } = (.ok o', st2) ∧
      0 < o.T ∧ o'.T < 0 := by
  have hset : ∀ s : PropSt, setPropDict M 10 [("J", .num 0.5)] s = (.ok (.atJ 0.5), { s with rps := 10 / (M.d * 0.5) }) :=
    fun s => set_J M 10 s (has_singleton _ _) (by norm_num) (by norm_num)
  obtain ⟨M', hM', hn, hd, hs, z0, z1⟩ := demo_ok (ι := ι) table cg units pts
  rw [hM] at hM'; cases hM'
  have hmild := demo_mild hM (J := 0.5) (by norm_num) (by norm_num)
  obtain ⟨mem, h1⟩ := demo_run hM 10 0.002 (J := 0.5) (by norm_num) (by norm_num) (fun _ => 1) (10 / (M.d * 0.5)) st.tick _ hset st.rps
  obtain ⟨mem', h2⟩ := demo_run hM 10 0.002 (J := 0.5) (by norm_num) (by norm_num) (fun _ => -1) (10 / (M.d * 0.5)) st.tick _ hset st.rps
  obtain ⟨o, st1, r1, n1, v1, C1, T1, -⟩ := h1 simps fuel
  obtain ⟨o', st2, r2, n2, v2, C2, T2, -⟩ := h2 simps fuel
  have hblade : ∀ y, overBlade M simps y = simps [y 0, y 1] [(M.stn 0).zeta, (M.stn 1).zeta] := by
    intro y; unfold overBlade; rw [hn]; rfl
  have hz01 : (M.stn 0).zeta < (M.stn 1).zeta := by rw [z0, z1]; norm_num
  have hpi := Real.pi_gt_d2
  norm_num at hpi
  have hbeta : ∀ i, i < 2 → 0 < (M.stn i).beta ∧ (M.stn i).beta < 1 := by
    intro i hi
    obtain ⟨q1, -, -, q4, -, -, -, -, -, q9, -⟩ := hs i hi
    have hp : 0 < Real.pi * (M.stn i).zeta := mul_pos Real.pi_pos q1
    have hx : 0 < 1 / (Real.pi * (M.stn i).zeta) := div_pos one_pos hp
    rw [q4]
    refine ⟨Real.arctan_pos.2 hx, (arctan_lt_self hx).trans ?_⟩
    rw [div_lt_one hp]
    norm_num at q9
    nlinarith
  -- the factor in front of the section forces
  have hfac : ∀ (c : Coefs) i, i < 2 → c.einf i = einfAt 0.5 (M.stn i).zeta → c.ei i = (M.stn i).beta - c.einf i →
      0 < (M.stn i).zeta * (M.stn i).zeta * (M.stn i).chatb *
        (Real.cos (c.ei i) * Real.cos (c.ei i) / (Real.cos (c.einf i) * Real.cos (c.einf i))) := by
    intro c i hi e1 e2
    obtain ⟨q1, -, -, -, -, -, -, q8, q9, -, -⟩ := hs i hi
    have m := hmild.node i (by rw [hn]; exact hi)
    have hc1 : Real.cos (c.einf i) ≠ 0 := by rw [e1]; exact m.2.1
    have hc2 : 0 < Real.cos (c.ei i) := by
      rw [e2, e1]
      have := abs_lt.1 m.2.2.1
      exact Real.cos_pos_of_mem_Ioo ⟨by linarith, by linarith⟩
    have : 0 < (M.stn i).chatb := by rw [q9, q8]; exact mul_pos (by norm_num) q1
    have : 0 < Real.cos (c.einf i) * Real.cos (c.einf i) := mul_self_pos.2 hc1
    positivity
  have hcs : ∀ i, i < 2 → 0 < Real.cos (M.stn i).beta ∧ 0 < Real.sin (M.stn i).beta ∧ Real.sin (M.stn i).beta ≤ 1 ∧
      0.5 < Real.cos (M.stn i).beta := by
    intro i hi
    obtain ⟨b1, b2⟩ := hbeta i hi
    have h3 : Real.cos (Real.pi / 3) < Real.cos (M.stn i).beta :=
      Real.cos_lt_cos_of_nonneg_of_le_pi b1.le (by linarith) (by linarith)
    rw [Real.cos_pi_div_three] at h3
    refine ⟨by linarith, Real.sin_pos_of_pos_of_lt_pi b1 (by linarith), Real.sin_le_one _, by norm_num; linarith⟩
  have hpos1 : ∀ i, i < 2 → 0 < (M.stn i).zeta * (M.stn i).zeta * (M.stn i).chatb *
        (Real.cos (o.c.ei i) * Real.cos (o.c.ei i) / (Real.cos (o.c.einf i) * Real.cos (o.c.einf i))) *
        (o.c.CL i * Real.cos (o.c.einf i + o.c.ei i) - o.c.CD i * Real.sin (o.c.einf i + o.c.ei i)) := by
    intro i hi
    obtain ⟨w1, -, w3, w4, w5⟩ := v1 i hi
    refine mul_pos (hfac o.c i hi w3 w4) ?_
    obtain ⟨u1, u2, u3, u4⟩ := hcs i hi
    rw [w1, w5, w4, add_sub_cancel]
    norm_num at u4 ⊢
    linarith
  have hneg1 : ∀ i, i < 2 → (M.stn i).zeta * (M.stn i).zeta * (M.stn i).chatb *
        (Real.cos (o'.c.ei i) * Real.cos (o'.c.ei i) / (Real.cos (o'.c.einf i) * Real.cos (o'.c.einf i))) *
        (o'.c.CL i * Real.cos (o'.c.einf i + o'.c.ei i) - o'.c.CD i * Real.sin (o'.c.einf i + o'.c.ei i)) < 0 := by
    intro i hi
    obtain ⟨w1, -, w3, w4, w5⟩ := v2 i hi
    refine mul_neg_of_pos_of_neg (hfac o'.c i hi w3 w4) ?_
    obtain ⟨u1, u2, u3, u4⟩ := hcs i hi
    rw [w1, w5, w4, add_sub_cancel]
    norm_num at u4 ⊢
    linarith
  have hq : (0 : ℝ) < 0.002 * (10 / (M.d * 0.5) * (10 / (M.d * 0.5))) * 16 := by rw [hd]; norm_num
  have hpp : (0 : ℝ) < Real.pi * Real.pi / 4 := by positivity
  refine ⟨mem, mem', o, o', st1, st2, ?_, ?_, ?_, ?_⟩
  · rcases st with ⟨ei, rps, m, t⟩
    subst h0
    exact r1
  · rcases st with ⟨ei, rps, m, t⟩
    subst h0
    exact r2
  · rw [T1, C1, hblade]
    exact mul_pos hq (mul_pos hpp (hpos _ _ _ _ (hpos1 0 (by norm_num)) (hpos1 1 (by norm_num)) hz01))
  · rw [T2, C2, hblade]
    exact mul_neg_of_pos_of_neg hq (mul_neg_of_pos_of_neg hpp (hneg _ _ _ _ (hneg1 0 (by norm_num)) (hneg1 1 (by norm_num)) hz01))

/-- the trapezoid rule is such a quadrature (it is what Simpson's rule does with two points) -/
example : ∃ simps : List ℝ → List ℝ → ℝ,
    (∀ y0 y1 x0 x1 : ℝ, 0 < y0 → 0 < y1 → x0 < x1 → 0 < simps [y0, y1] [x0, x1]) ∧
    (∀ y0 y1 x0 x1 : ℝ, y0 < 0 → y1 < 0 → x0 < x1 → simps [y0, y1] [x0, x1] < 0) := by
  refine ⟨fun ys xs => match ys, xs with
    | [y0, y1], [x0, x1] => (x1 - x0) * (y0 + y1) / 2
    | _, _ => 0, fun y0 y1 x0 x1 h0 h1 h => ?_, fun y0 y1 x0 x1 h0 h1 h => ?_⟩
  · have : 0 < x1 - x0 := by linarith
    simp only; positivity
  · simp only; nlinarith

/-- the propeller of the theorem exists -/
example : ∃ M : PropM ℕ, mkPropM (fun _ _ => 0) demoProp 0 none none = .ok M :=
  (demo_ok (ι := ℕ) (fun _ _ => 0) 0 none none).imp fun _ h => h.1

end Verif
