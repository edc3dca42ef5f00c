import Verif.Spec.PropInduced
import Verif.Thm.PropElement
import Verif.Thm.PropBlade

/-! # C108: the induced angles balance blade-element lift and wake -/

namespace Verif
open V3 Act

variable {ι : Type} {simps : List ℝ → List ℝ → ℝ} {fuel : ℕ}

/-- `y` is what `_ei_function` returns for `x`, with some memory contents -/
def Residual (M : PropM ι) (einf x y : ℕ → ℝ) : Prop :=
  ∀ i, i < M.nodes → ∃ (m : Option ℝ) (CL : ℝ), sectionCL (M.stn i) m ((M.stn i).beta - einf i - x i) = some CL ∧
    y i = (M.stn i).chatb / (8 * (M.stn i).zeta) * CL - Real.arccos (goldstein M i) * Real.tan (x i) * Real.sin (einf i + x i)

theorem eiFunction_residual {M : PropM ι} {einf x y : ℕ → ℝ} {st st' : PropSt} (h : eiFunction M einf x st = (.ok y, st')) :
    Residual M einf x y := by
  unfold eiFunction at h
  obtain ⟨CL, s1, h1, h⟩ := bind_ok.1 h
  obtain ⟨_, s2, -, h⟩ := bind_ok.1 h
  simp only [pure_run, Prod.mk.injEq, Except.ok.injEq] at h
  rw [getCL_run] at h1
  intro i hi
  exact ⟨_, _, (allSome_eq_ok.1 h1).1 i hi, by rw [← h.1]⟩

open Classical in
/-- the two sets of angles and residuals that the iteration ends with -/
theorem eiLoop_ends {M : PropM ι} {einf : ℕ → ℝ} {fuel k : ℕ} {x0 x1 x2 y0 y1 : ℕ → ℝ} {st st' : PropSt} {r : ℕ → ℝ}
    (h0 : Residual M einf x0 y0) (h1 : Residual M einf x1 y1) (h2 : ∀ i, x2 i = x0 i ∨ x2 i = x1 i)
    (h : eiLoop M einf fuel k x0 x1 x2 y0 y1 st = (.ok r, st')) :
    ∃ a b ya yb : ℕ → ℝ, Residual M einf a ya ∧ Residual M einf b yb ∧
      ((List.range M.nodes).filter fun i => |yb i - ya i| > 1e-11).length < 3 ∧
      ∀ i, ∃ x, r i = correctEi (M.stn i).beta (einf i) x ∧
        (|yb i - ya i| ≤ 1e-11 → x = a i ∨ x = b i) ∧
        (1e-11 < |yb i - ya i| → x = b i - yb i * (b i - a i) / (yb i - ya i)) := by
  induction fuel generalizing k x0 x1 x2 y0 y1 st with
  | zero => simp [eiLoop] at h
  | succ fuel ih =>
    unfold eiLoop at h
    simp only at h
    split_ifs at h with hc
    · simp only [pure_run, Prod.mk.injEq, Except.ok.injEq] at h
      refine ⟨x0, x1, y0, y1, h0, h1, ?_, fun i =>
        ⟨if |y1 i - y0 i| > 1e-11 then x1 i - y1 i * (x1 i - x0 i) / (y1 i - y0 i) else x2 i, ?_, fun hl => ?_, fun hl => ?_⟩⟩
      · rcases hc with hc | hc
        · exact hc.2
        · rw [hc]; norm_num
      · rw [← h.1]
      · rw [if_neg (not_lt.2 hl)]; exact h2 i
      · rw [if_pos hl]
    · obtain ⟨y, s1, hy, h⟩ := bind_ok.1 h
      exact ih h1 (eiFunction_residual hy) (fun i => .inr rfl) h

theorem findEi_ends {M : PropM ι} {einf : ℕ → ℝ} {fuel : ℕ} {st st' : PropSt} {r : ℕ → ℝ} (h : findEi M fuel einf st = (.ok r, st')) :
    ∃ a b ya yb : ℕ → ℝ, Residual M einf a ya ∧ Residual M einf b yb ∧
      (∃ l : List ℕ, l.length < 3 ∧ ∀ i, i < M.nodes → i ∉ l → |yb i - ya i| ≤ 1e-11) ∧
      ∀ i, ∃ x, r i = correctEi (M.stn i).beta (einf i) x ∧
        (|yb i - ya i| ≤ 1e-11 → x = a i ∨ x = b i) ∧
        (1e-11 < |yb i - ya i| → x = b i - yb i * (b i - a i) / (yb i - ya i)) := by
  classical
  unfold findEi at h
  rw [get_bind] at h
  obtain ⟨y0, s1, h0, h⟩ := bind_ok.1 h
  obtain ⟨y1, s2, h1, h⟩ := bind_ok.1 h
  obtain ⟨a, b, ya, yb, ha, hb, hl, hr⟩ := eiLoop_ends (eiFunction_residual h0) (eiFunction_residual h1) (fun _ => .inl rfl) h
  refine ⟨a, b, ya, yb, ha, hb, ⟨_, hl, fun i hi hn => ?_⟩, hr⟩
  by_contra hlt
  exact hn (List.mem_filter.2 ⟨List.mem_range.2 hi, by simpa using hlt⟩)

theorem findCoefs_ends {M : PropM ι} {J : ℝ} {st st' : PropSt} {c : Coefs} (h : findCoefs M simps fuel J st = (.ok c, st')) :
    ∃ s s', findEi M fuel c.einf s = (.ok c.ei, s') := by
  unfold findCoefs at h
  simp only [change_bind] at h
  obtain ⟨_, s1, -, h⟩ := bind_ok.1 h
  obtain ⟨ei, s2, h2, h⟩ := bind_ok.1 h
  rw [change_bind] at h
  unfold coefsAt at h
  simp only at h
  obtain ⟨CL, s3, -, h⟩ := bind_ok.1 h
  obtain ⟨CD, s4, -, h⟩ := bind_ok.1 h
  obtain ⟨CLa, s5, -, h⟩ := bind_ok.1 h
  simp only [pure_run, Prod.mk.injEq, Except.ok.injEq] at h
  rw [← h.1]
  exact ⟨_, _, h2⟩

theorem correctEi_keeps {beta einf x : ℝ} (h1 : |x| < 1) (h2 : 0 < x * (beta - einf)) : correctEi beta einf x = x := by
  unfold correctEi
  simp only [if_pos h1]
  rw [if_neg]
  push Not
  rcases pos_and_pos_or_neg_and_neg_of_mul_pos h2 with ⟨a, b⟩ | ⟨a, b⟩
  · unfold npSign; rw [if_pos a, if_pos b]
  · unfold npSign; rw [if_neg a.not_gt, if_pos a, if_neg b.not_gt, if_pos b]

/-- the residual in terms of chord and radius -/
theorem imbalance_eq {q : PropGeom} {M : PropM ι} (hg : M.geom = q) (hd : q.diameter ≠ 0) {i : ℕ} {einf x CL : ℝ}
    (hr : (M.stn i).r = q.diameter / 2 * (M.stn i).zeta) (hc : (M.stn i).chatb = q.blades * (M.stn i).cb / q.diameter) :
    (M.stn i).chatb / (8 * (M.stn i).zeta) * CL - Real.arccos (goldstein M i) * Real.tan x * Real.sin (einf + x) =
      imbalance q.blades (M.stn i).cb (M.stn i).r (q.diameter / 2) (M.stn (q.nodes - 1)).beta einf x CL := by
  have hN : M.nodes = q.nodes := by unfold PropM.nodes; rw [hg]
  have hB : M.blades = q.blades := by unfold PropM.blades; rw [hg]
  unfold imbalance goldstein
  have e1 : (M.stn i).chatb / (8 * (M.stn i).zeta) = q.blades * (M.stn i).cb / (16 * (M.stn i).r) := by
    rw [hr, hc]
    by_cases hz : (M.stn i).zeta = 0
    · simp [hz]
    · field_simp
      ring
  have e2 : (M.stn i).r / (q.diameter / 2) = (M.stn i).zeta := by
    rw [hr]; field_simp
  rw [e1, e2, hN, hB, neg_div]

/-- **C108, the part that holds.** A successful analysis has evaluated the balance at two sets of induced angles `a` and `b`, with
the section lift at the angle of attack they leave.  At all stations except at most two (`late`) the two imbalances agree to
`1e-11`, and there the reported induced angle is one of the two; at the others it is the secant step from them - in both cases
as long as this angle is below 1 rad and has the sign of pitch minus advance angle.

Missing: that the imbalance is small. -/
theorem C108_stop_partial {table : String → ℝ → ℝ} {q : PropGeom} {cg : V3} {units : Option String} {pts : Option (ι → V3)} {M : PropM ι}
    (hM : mkPropM table q cg units pts = .ok M) {aero : Option (AeroDict ι)} {s : PropDict} {st st' : PropSt}
    {o : PropOut} (h : runProp simps fuel M aero s st = (.ok o, st')) :
    ∃ (a b CLa CLb ya yb : ℕ → ℝ) (late : List ℕ), late.length < 3 ∧ ∀ i, i < q.nodes →
      (∃ m, sectionCL (M.stn i) m ((M.stn i).beta - o.c.einf i - a i) = some (CLa i)) ∧
      (∃ m, sectionCL (M.stn i) m ((M.stn i).beta - o.c.einf i - b i) = some (CLb i)) ∧
      ya i = imbalance q.blades (M.stn i).cb (M.stn i).r (q.diameter / 2) (M.stn (q.nodes - 1)).beta (o.c.einf i) (a i) (CLa i) ∧
      yb i = imbalance q.blades (M.stn i).cb (M.stn i).r (q.diameter / 2) (M.stn (q.nodes - 1)).beta (o.c.einf i) (b i) (CLb i) ∧
      (i ∉ late → |yb i - ya i| ≤ 1e-11) ∧
      ∃ x, (|yb i - ya i| ≤ 1e-11 → x = a i ∨ x = b i) ∧
        (1e-11 < |yb i - ya i| → x = b i - yb i * (b i - a i) / (yb i - ya i)) ∧
        (|x| < 1 → 0 < x * ((M.stn i).beta - o.c.einf i) → o.c.ei i = x) := by
  classical
  obtain ⟨hd, hn, hg, -, -, -, -, af, haf, hst⟩ := mkPropM_ok hM
  have hN : M.nodes = q.nodes := by unfold PropM.nodes; rw [hg]
  have hc : ∀ i, i < q.nodes → (M.stn i).r = q.diameter / 2 * (M.stn i).zeta ∧
      (M.stn i).chatb = q.blades * (M.stn i).cb / q.diameter := by
    intro i hi
    obtain ⟨beta, cb, -, -, h1⟩ := hst i hi
    unfold mkStn at h1
    simp only at h1
    split_ifs at h1 with hf
    simp only [Option.some.injEq] at h1
    rw [← h1]
    exact ⟨by ring, rfl⟩
  rcases hpf : propFlow aero with er | fl
  · unfold runProp at h
    rw [hpf] at h
    simp at h
  rw [runProp_eq M hpf] at h
  obtain ⟨dr, s1, h1, h2⟩ := bind_ok.1 h
  obtain ⟨c, h3, h4⟩ := calcForces_ok h2
  obtain ⟨-, e2⟩ := forcesOf_out h4
  obtain ⟨J, s, s', h5⟩ := driveCoefs_some h3
  obtain ⟨s, s', h6⟩ := findCoefs_ends h5
  obtain ⟨a, b, ya, yb, ha, hb, ⟨l, hl, hs⟩, hr⟩ := findEi_ends h6
  rw [e2]
  choose! ma CLa ha1 ha2 using ha
  choose! mb CLb hb1 hb2 using hb
  refine ⟨a, b, CLa, CLb, ya, yb, l, hl, fun i hi => ?_⟩
  have hi' : i < M.nodes := hN ▸ hi
  obtain ⟨x, hx1, hx2, hx3⟩ := hr i
  refine ⟨⟨_, ha1 i hi'⟩, ⟨_, hb1 i hi'⟩, ?_, ?_, hs i hi', x, hx2, hx3, fun h1 h2 => ?_⟩
  · rw [ha2 i hi', imbalance_eq hg hd (hc i hi).1 (hc i hi).2]
  · rw [hb2 i hi', imbalance_eq hg hd (hc i hi).1 (hc i hi).2]
  · rw [hx1, correctEi_keeps h1 h2]

/-- first analyses with any imbalance -/
theorem demo_imbalance {table : String → ℝ → ℝ} {cg : V3} {units : Option String} {pts : Option (ι → V3)} {M : PropM ι}
    (hM : mkPropM table demoProp cg units pts = .ok M) (size : ℝ) :
    ∃ mem, ∀ (simps : List ℝ → List ℝ → ℝ) (fuel : ℕ), ∃ o st',
      runProp simps (fuel + 1) M (some { Vmag := some 10, rho := some 0.002 }) [("J", .num 0.5)] { mem } = (.ok o, st') ∧ o.n = 10 ∧
      ∀ i, i < 2 → imbalance 2 (M.stn i).cb (M.stn i).r 1 (M.stn 1).beta (o.c.einf i) (o.c.ei i) (o.c.CL i) = size ∧
        0 ≤ o.c.CD i ∧ o.c.einf i < (M.stn i).beta := by
  obtain ⟨M', hM', hn, hD, hs, -, -⟩ := demo_ok (ι := ι) table cg units pts
  rw [hM] at hM'; cases hM'
  let rest (i : ℕ) : ℝ := Real.arccos (Real.exp (-(2 * (1 - (M.stn i).r / 1) / (2 * Real.sin (M.stn 1).beta)))) *
    Real.tan ((M.stn i).beta - einfAt 0.5 (M.stn i).zeta) * Real.sin (M.stn i).beta
  obtain ⟨mem, h⟩ := demo_run hM 10 0.002 (J := 0.5) (by norm_num) (by norm_num)
    (fun i => (size + rest i) / (2 * (M.stn i).cb / (16 * (M.stn i).r))) _ 0 [("J", .num 0.5)]
    (fun st => set_J M 10 st (has_singleton _ _) (by norm_num) (by norm_num)) 15
  refine ⟨mem, fun simps fuel => ?_⟩
  obtain ⟨o, st', h1, hon, h2, -⟩ := h simps fuel
  refine ⟨o, st', h1, by rw [hon, hD]; norm_num, fun i hi => ?_⟩
  obtain ⟨c1, -, c3, c4, c5⟩ := h2 i hi
  obtain ⟨z1, -, z3, z4, -, -, -, z8, -⟩ := hs i hi
  refine ⟨?_, ?_, ?_⟩
  · unfold imbalance
    rw [c1, c4, c3]
    have hne : 2 * (M.stn i).cb / (16 * (M.stn i).r) ≠ 0 := by
      rw [z8, z3]; positivity
    rw [mul_div_cancel₀ _ hne]
    simp only [rest]
    rw [add_sub_cancel]
    ring
  · rw [c5, mul_assoc]
    have := mul_self_nonneg ((size + rest i) / (2 * (M.stn i).cb / (16 * (M.stn i).r)))
    positivity
  · have hp : 0 < Real.pi * (M.stn i).zeta := mul_pos Real.pi_pos z1
    rw [c3, z4]
    unfold einfAt
    rw [arctan2_pos _ hp]
    exact Real.arctan_strictMono (div_lt_div_of_pos_right (by norm_num) hp)

/-- **C108 fails:** the iteration tests whether the imbalance changes, not whether it is small.  The first analysis of a new
propeller can end with an imbalance of any size: its starting angles leave no angle of attack, the lift there is whatever the memory held. -/
theorem C108_refuted {table : String → ℝ → ℝ} {cg : V3} {units : Option String} {pts : Option (ι → V3)} {M : PropM ι}
    (hM : mkPropM table demoProp cg units pts = .ok M) (size : ℝ) :
    ∃ mem, ∀ (simps : List ℝ → List ℝ → ℝ) (fuel : ℕ), ∃ o st',
      runProp simps (fuel + 1) M (some { Vmag := some 10, rho := some 0.002 }) [("J", .num 0.5)] { mem } = (.ok o, st') ∧
      ∀ i, i < 2 → imbalance 2 (M.stn i).cb (M.stn i).r 1 (M.stn 1).beta (o.c.einf i) (o.c.ei i) (o.c.CL i) = size := by
  obtain ⟨mem, h⟩ := demo_imbalance hM size
  refine ⟨mem, fun simps fuel => ?_⟩
  obtain ⟨o, st', h1, -, h2⟩ := h simps fuel
  exact ⟨o, st', h1, fun i hi => (h2 i hi).1⟩

/-- a successful analysis C108 speaks of -/
example : ∃ (M : PropM ℕ) (mem : ℕ → ℕ → Option ℝ) (o : PropOut) (st' : PropSt),
    mkPropM (fun _ _ => 0) demoProp 0 none none = .ok M ∧
    runProp (fun _ _ => 1) 1 M (some { Vmag := some 10, rho := some 0.002 }) [("J", .num 0.5)] { mem } = (.ok o, st') := by
  obtain ⟨M, hM, -⟩ := demo_ok (ι := ℕ) (fun _ _ => 0) 0 none none
  obtain ⟨mem, h⟩ := C108_refuted hM 0
  obtain ⟨o, st', h, -⟩ := h (fun _ _ => 1) 0
  exact ⟨M, mem, o, st', hM, h⟩

end Verif
