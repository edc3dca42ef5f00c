import Verif.Lemmas.Prop
import Mathlib.Analysis.Real.Pi.Bounds

/-! # The first analysis of a propeller -/

namespace Verif
open V3 Act

variable {ι : Type}

theorem sectionCL_linear (s : Stn) (mem : Option ℝ) {a : ℝ} (ha : a ≠ 0) (h1 : a - s.dA < rad 2) (h2 : -a - s.dA < rad 2) :
    sectionCL s mem a = some (s.af.CLa * a) := by
  unfold sectionCL
  rcases lt_or_gt_of_ne ha with h | h
  · rw [if_neg (by linarith), if_pos h]
    unfold liftSide
    simp only [if_pos h2, Option.map_some, Option.some.injEq]
    ring
  · rw [if_pos h]
    unfold liftSide
    simp only [if_pos h1, Option.map_some, Option.some.injEq]
    ring

theorem sectionCL_zero (s : Stn) (mem : Option ℝ) : sectionCL s mem 0 = mem := by
  unfold sectionCL; simp

theorem getCL_run (M : PropM ι) (alpha : ℕ → ℝ) (st : PropSt) :
    getCL M alpha st = Act.allSome M.nodes (fun i => sectionCL (M.stn i) (st.mem st.tick i) (alpha i))
      { st with tick := st.tick + 1 } := rfl

theorem getCD_run (M : PropM ι) (CL alpha : ℕ → ℝ) (st : PropSt) :
    getCD M CL alpha st = Act.allSome M.nodes (fun i => sectionCD (M.stn i) (st.mem st.tick i) (CL i) (alpha i))
      { st with tick := st.tick + 1 } := rfl

/-- an array computed without `nan` -/
theorem allSome_run {S : Type} {n : ℕ} {f : ℕ → Option ℝ} {g : ℕ → ℝ} (h : ∀ i, i < n → f i = some (g i)) (s : S) :
    ∃ g', (Act.allSome n f : Act S _) s = (.ok g', s) ∧ ∀ i, i < n → g' i = g i := by
  refine ⟨_, allSome_of (fun i hi => by rw [h i hi]; rfl) s, fun i hi => ?_⟩
  simp [h i hi, hi]

theorem rad_two_gt : (0.034 : ℝ) < rad 2 := by
  unfold rad
  have := Real.pi_gt_d2
  norm_num at this ⊢
  linarith

/-- a propeller and an advance ratio at which nothing is extreme: moderate difference of pitch and advance angle, a stall
delay that is not negative by more than 1.7°, chord, and zero angle of attack below stall -/
structure Mild (M : PropM ι) (J : ℝ) : Prop where
  tip : Real.sin (M.stn (M.nodes - 1)).beta ≠ 0
  node : ∀ i, i < M.nodes → goldstein M i ≤ 1 ∧ Real.cos (einfAt J (M.stn i).zeta) ≠ 0 ∧
    |(M.stn i).beta - einfAt J (M.stn i).zeta| < 1 ∧ -0.03 ≤ (M.stn i).dA ∧ (M.stn i).dasNeg < 0 ∧ 0 < (M.stn i).das ∧
    (M.stn i).chatb ≠ 0 ∧ (M.stn i).zeta ≠ 0

theorem correctEi_fix {beta einf : ℝ} (h : |beta - einf| < 1) : correctEi beta einf (beta - einf) = beta - einf := by
  unfold correctEi
  simp only [if_pos h, ne_eq, not_true_eq_false, if_false]

theorem eiFunction_ok {M : PropM ι} {einf ei CL : ℕ → ℝ} {st : PropSt}
    (h : ∀ i, i < M.nodes → sectionCL (M.stn i) (st.mem st.tick i) ((M.stn i).beta - einf i - ei i) = some (CL i))
    (hc : ∀ i, i < M.nodes → Real.cos (ei i) ≠ 0) :
    ∃ y, eiFunction M einf ei st = (.ok y, { st with tick := st.tick + 1 }) ∧ ∀ i, i < M.nodes →
      y i = (M.stn i).chatb / (8 * (M.stn i).zeta) * CL i -
        Real.arccos (goldstein M i) * Real.tan (ei i) * Real.sin (einf i + ei i) := by
  obtain ⟨g, hg, hgi⟩ := allSome_run (g := CL) h { st with tick := st.tick + 1 }
  refine ⟨fun i => (M.stn i).chatb / (8 * (M.stn i).zeta) * g i -
        Real.arccos (goldstein M i) * Real.tan (ei i) * Real.sin (einf i + ei i), ?_, fun i hi => ?_⟩
  · unfold eiFunction
    rw [bind_of_ok (by rw [getCL_run]; exact hg), bind_of_ok (finite_of hc _)]
    rfl
  · simp only; rw [hgi i hi]

theorem eiLoop_stop {M : PropM ι} {einf : ℕ → ℝ} {fuel k : ℕ} {x0 x1 x2 y0 y1 : ℕ → ℝ} {st : PropSt}
    (h : ∀ i, i < M.nodes → y1 i = y0 i) :
    ∃ r, eiLoop M einf (fuel + 1) k x0 x1 x2 y0 y1 st = (.ok r, st) ∧
      ∀ i, i < M.nodes → r i = correctEi (M.stn i).beta (einf i) (x2 i) := by
  classical
  refine ⟨fun i => correctEi (M.stn i).beta (einf i)
      (if |y1 i - y0 i| > 1e-11 then x1 i - y1 i * (x1 i - x0 i) / (y1 i - y0 i) else x2 i), ?_, fun i hi => ?_⟩
  · unfold eiLoop
    simp only
    rw [if_pos]
    · rw [pure_run]
    · right
      rw [List.length_eq_zero_iff, List.filter_eq_nil_iff]
      intro i hi
      rw [List.mem_range] at hi
      rw [h i hi]
      norm_num
  · simp only
    rw [if_neg]
    rw [h i hi]
    norm_num

/-- the coefficients are the integrals of the section values that are returned with them -/
theorem findCoefs_integrals {M : PropM ι} {simps : List ℝ → List ℝ → ℝ} {fuel : ℕ} {J : ℝ} {st st' : PropSt} {c : Coefs}
    (h : findCoefs M simps fuel J st = (.ok c, st')) :
    c.CT = Real.pi * Real.pi / 4 * overBlade M simps (fun i => (M.stn i).zeta * (M.stn i).zeta * (M.stn i).chatb *
      (Real.cos (c.ei i) * Real.cos (c.ei i) / (Real.cos (c.einf i) * Real.cos (c.einf i))) *
      (c.CL i * Real.cos (c.einf i + c.ei i) - c.CD i * Real.sin (c.einf i + c.ei i))) ∧
    c.Cl = Real.pi * Real.pi / 8 * overBlade M simps (fun i => (M.stn i).zeta * (M.stn i).zeta * (M.stn i).zeta * (M.stn i).chatb *
      (Real.cos (c.ei i) * Real.cos (c.ei i) / (Real.cos (c.einf i) * Real.cos (c.einf i))) *
      (c.CD i * Real.cos (c.einf i + c.ei i) + c.CL i * Real.sin (c.einf i + c.ei i))) ∧
    (∀ i, c.alpha i = (M.stn i).beta - c.einf i - c.ei i) ∧ (∀ i, c.einf i = einfAt J (M.stn i).zeta) ∧
    ∃ mem mem' : ℕ → Option ℝ, ∀ i, i < M.nodes → sectionCL (M.stn i) (mem i) (c.alpha i) = some (c.CL i) ∧
      sectionCD (M.stn i) (mem' i) (c.CL i) (c.alpha i) = some (c.CD i) := by
  unfold findCoefs at h
  simp only [change_bind] at h
  obtain ⟨_, s1, -, h⟩ := bind_ok.1 h
  obtain ⟨ei, s2, -, h⟩ := bind_ok.1 h
  rw [change_bind] at h
  unfold coefsAt at h
  simp only at h
  obtain ⟨CL, s3, h3, h⟩ := bind_ok.1 h
  obtain ⟨CD, s4, h4, h⟩ := bind_ok.1 h
  obtain ⟨CLa, s5, -, h⟩ := bind_ok.1 h
  simp only [pure_run, Prod.mk.injEq, Except.ok.injEq] at h
  rw [getCL_run] at h3
  rw [getCD_run] at h4
  rw [← h.1]
  exact ⟨rfl, rfl, fun _ => rfl, fun _ => rfl, _, _, fun i hi =>
    ⟨(allSome_eq_ok.1 h3).1 i hi, (allSome_eq_ok.1 h4).1 i hi⟩⟩

/-- **The first analysis of a propeller.**  The starting induced angles put every blade section at zero angle of attack,
where the lift array is never filled.  With memory contents for which the first two residuals agree the iteration stops at
once, and the section lift coefficients of the result are the contents of another uninitialised array: any numbers `g`.  Only these two arrays need contents that are numbers. -/
theorem first_solve_reads {M : PropM ι} {J : ℝ} (h : Mild M J) (g : ℕ → ℝ) {st : PropSt} (h0 : ∀ i, i < M.nodes → st.ei i = 0) :
    ∃ mem, (∀ k i x, mem k i = some x → k = st.tick ∨ k = st.tick + 2) ∧
      ∀ (simps : List ℝ → List ℝ → ℝ) (fuel : ℕ), ∃ c st', findCoefs M simps (fuel + 1) J { st with mem } = (.ok c, st') ∧
      st'.rps = st.rps ∧ (∀ i, i < M.nodes → c.einf i = einfAt J (M.stn i).zeta ∧ c.ei i = (M.stn i).beta - c.einf i ∧
        c.alpha i = 0 ∧ c.CL i = g i ∧
        c.CD i = (M.stn i).af.CD0 + (M.stn i).af.CDL * g i + (M.stn i).af.CDL2 * g i * g i) ∧
      st'.ei = c.ei := by
  set einf : ℕ → ℝ := fun i => einfAt J (M.stn i).zeta with heinf
  set x0 : ℕ → ℝ := fun i => (M.stn i).beta - einf i with hx0
  set x1 : ℕ → ℝ := fun i => x0 i * (1 + 1e-4) - 1e-4 with hx1
  let res (e : ℕ → ℝ) (i : ℕ) : ℝ := Real.arccos (goldstein M i) * Real.tan (e i) * Real.sin (einf i + e i)
  let y1 (i : ℕ) : ℝ := (M.stn i).chatb / (8 * (M.stn i).zeta) * ((M.stn i).af.CLa * (1e-4 * (1 - x0 i))) - res x1 i
  let mem : ℕ → ℕ → Option ℝ := fun k i => if k = st.tick then
    some ((y1 i + res x0 i) / ((M.stn i).chatb / (8 * (M.stn i).zeta))) else if k = st.tick + 2 then some (g i) else none
  have hcos : ∀ x : ℝ, |x| < 1.5 → Real.cos x ≠ 0 := by
    intro x hx
    rw [abs_lt] at hx
    have := Real.pi_gt_d2
    refine (Real.cos_pos_of_mem_Ioo ⟨?_, ?_⟩).ne' <;> norm_num at hx this ⊢ <;> linarith
  have hab : ∀ i, i < M.nodes → |x0 i| < 1 := fun i hi => (h.node i hi).2.2.1
  have hr2 := rad_two_gt
  have lin : ∀ i, i < M.nodes → ∀ (m : Option ℝ) (a : ℝ), a ≠ 0 → |a| ≤ 0.001 →
      sectionCL (M.stn i) m a = some ((M.stn i).af.CLa * a) := by
    intro i hi m a ha hle
    rw [abs_le] at hle
    have := (h.node i hi).2.2.2.1
    refine sectionCL_linear _ _ ha ?_ ?_ <;> norm_num at hle this hr2 ⊢ <;> linarith
  refine ⟨mem, fun k i x hk => ?_, fun simps fuel => ?_⟩
  · simp only [mem] at hk
    split_ifs at hk with h1 h2
    · exact .inl h1
    · exact .inr h2
  unfold findCoefs
  simp only [change_bind]
  rw [if_neg (by push Not; exact h0), bind_of_ok (finite_of ⟨h.tip, fun i hi => ⟨(h.node i hi).1, (h.node i hi).2.1⟩⟩ _)]
  -- the first residual
  obtain ⟨a0, r0, v0⟩ := eiFunction_ok (M := M) (einf := einf) (ei := x0)
    (CL := fun i => (y1 i + res x0 i) / ((M.stn i).chatb / (8 * (M.stn i).zeta)))
    (st := { ei := x0, rps := st.rps, mem, tick := st.tick })
    (fun i hi => by
      have : (M.stn i).beta - einf i - x0 i = 0 := by simp [x0]
      rw [this, sectionCL_zero]
      simp [mem])
    (fun i hi => hcos _ (lt_trans (hab i hi) (by norm_num)))
  -- the second
  obtain ⟨a1, r1, v1⟩ := eiFunction_ok (M := M) (einf := einf) (ei := x1)
    (CL := fun i => (M.stn i).af.CLa * (1e-4 * (1 - x0 i)))
    (st := { ei := x0, rps := st.rps, mem, tick := st.tick + 1 })
    (fun i hi => by
      have hlt := abs_lt.1 (hab i hi)
      have e : (M.stn i).beta - einf i - x1 i = 1e-4 * (1 - x0 i) := by simp only [x1, x0]; ring
      rw [e]
      refine lin i hi _ _ (mul_ne_zero (by norm_num) (by linarith)) ?_
      rw [abs_le]
      constructor <;> norm_num <;> linarith)
    (fun i hi => hcos _ (by
      have hlt := abs_lt.1 (hab i hi)
      simp only [x1]
      rw [abs_lt]
      constructor <;> norm_num <;> linarith))
  have hy : ∀ i, i < M.nodes → a1 i = a0 i := by
    intro i hi
    rw [v0 i hi, v1 i hi]
    have hc : (M.stn i).chatb / (8 * (M.stn i).zeta) ≠ 0 :=
      div_ne_zero (h.node i hi).2.2.2.2.2.2.1 (mul_ne_zero (by norm_num) (h.node i hi).2.2.2.2.2.2.2)
    rw [mul_div_cancel₀ _ hc]
    simp only [y1, res]
    ring
  obtain ⟨r, hr, hri⟩ := eiLoop_stop (M := M) (einf := einf) (fuel := fuel) (k := 0) (x0 := x0) (x1 := x1) (x2 := x0)
    (st := { ei := x0, rps := st.rps, mem, tick := st.tick + 1 + 1 }) hy
  have hfind : findEi M (fuel + 1) einf { ei := x0, rps := st.rps, mem, tick := st.tick } =
      (.ok r, { ei := x0, rps := st.rps, mem, tick := st.tick + 1 + 1 }) := by
    unfold findEi
    rw [get_bind]
    simp only
    rw [bind_of_ok r0, bind_of_ok r1]
    exact hr
  rw [bind_of_ok hfind, change_bind]
  have hrx : ∀ i, i < M.nodes → r i = x0 i := by
    intro i hi
    rw [hri i hi]
    exact correctEi_fix (hab i hi)
  have halpha : ∀ i, i < M.nodes → (M.stn i).beta - einf i - r i = 0 := by
    intro i hi; rw [hrx i hi]; simp [x0]
  have hm : ∀ i, mem (st.tick + 1 + 1) i = some (g i) := by
    intro i; simp only [mem]; rw [if_neg (by omega), if_pos trivial]
  obtain ⟨CL, c1, c2⟩ := allSome_run (n := M.nodes) (g := g)
    (f := fun i => sectionCL (M.stn i) (mem (st.tick + 1 + 1) i) ((M.stn i).beta - einf i - r i))
    (fun i hi => by rw [halpha i hi, sectionCL_zero]; exact hm _)
    ({ ei := r, rps := st.rps, mem, tick := st.tick + 1 + 1 + 1 } : PropSt)
  obtain ⟨CD, d1, d2⟩ := allSome_run (n := M.nodes)
    (g := fun i => (M.stn i).af.CD0 + (M.stn i).af.CDL * g i + (M.stn i).af.CDL2 * g i * g i)
    (f := fun i => sectionCD (M.stn i) (mem (st.tick + 1 + 1 + 1) i) (CL i) ((M.stn i).beta - einf i - r i))
    (fun i hi => by
      have := h.node i hi
      rw [halpha i hi, c2 i hi]
      unfold sectionCD
      rw [if_neg (by linarith), if_neg (by linarith), if_pos ⟨by linarith, by linarith⟩])
    ({ ei := r, rps := st.rps, mem, tick := st.tick + 1 + 1 + 1 + 1 } : PropSt)
  obtain ⟨F, f1, f2⟩ := allSome_run (n := M.nodes) (g := fun i => (M.stn i).af.CLa * 0.001)
    (f := fun i => sectionCL (M.stn i) (mem (st.tick + 1 + 1 + 1 + 1) i) ((M.stn i).beta - einf i - r i + 0.001))
    (fun i hi => by
      rw [halpha i hi, zero_add]
      exact lin i hi _ _ (by norm_num) (by norm_num [abs_le]))
    ({ ei := r, rps := st.rps, mem, tick := st.tick + 1 + 1 + 1 + 1 + 1 } : PropSt)
  obtain ⟨G, g1, g2⟩ := allSome_run (n := M.nodes) (g := fun i => (M.stn i).af.CLa * -0.001)
    (f := fun i => sectionCL (M.stn i) (mem (st.tick + 1 + 1 + 1 + 1 + 1) i) ((M.stn i).beta - einf i - r i - 0.001))
    (fun i hi => by
      rw [halpha i hi, zero_sub]
      exact lin i hi _ _ (by norm_num) (by norm_num [abs_le]))
    ({ ei := r, rps := st.rps, mem, tick := st.tick + 1 + 1 + 1 + 1 + 1 + 1 } : PropSt)
  unfold coefsAt
  simp only
  rw [bind_of_ok (by rw [getCL_run]; exact c1), bind_of_ok (by rw [getCD_run]; exact d1)]
  have hCLa : getCLa M (fun i => (M.stn i).beta - einf i - r i)
      ({ ei := r, rps := st.rps, mem, tick := st.tick + 1 + 1 + 1 + 1 } : PropSt) =
      (.ok (fun i => (F i - G i) / 2 / 0.001), { ei := r, rps := st.rps, mem, tick := st.tick + 1 + 1 + 1 + 1 + 1 + 1 }) := by
    unfold getCLa
    rw [bind_of_ok (by rw [getCL_run]; exact f1), bind_of_ok (by rw [getCL_run]; exact g1)]
    rfl
  rw [bind_of_ok hCLa]
  refine ⟨_, _, rfl, rfl, fun i hi => ⟨rfl, hrx i hi, halpha i hi, c2 i hi, d2 i hi⟩, rfl⟩

/-- the same without the extent of the memory -/
theorem first_solve {M : PropM ι} {J : ℝ} (h : Mild M J) (g : ℕ → ℝ) {st : PropSt} (h0 : ∀ i, i < M.nodes → st.ei i = 0) :
    ∃ mem, ∀ (simps : List ℝ → List ℝ → ℝ) (fuel : ℕ), ∃ c st', findCoefs M simps (fuel + 1) J { st with mem } = (.ok c, st') ∧
      st'.rps = st.rps ∧ (∀ i, i < M.nodes → c.einf i = einfAt J (M.stn i).zeta ∧ c.ei i = (M.stn i).beta - c.einf i ∧
        c.alpha i = 0 ∧ c.CL i = g i ∧
        c.CD i = (M.stn i).af.CD0 + (M.stn i).af.CDL * g i + (M.stn i).af.CDL2 * g i * g i) ∧
      st'.ei = c.ei := by
  obtain ⟨mem, -, hm⟩ := first_solve_reads h g h0
  exact ⟨mem, hm⟩

end Verif
