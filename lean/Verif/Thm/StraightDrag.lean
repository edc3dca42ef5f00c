import Verif.Thm.StraightWing

/-!
# Induced drag of straight wings (C129)
-/

set_option linter.unusedSectionVars false

namespace Verif
open V3

/-- a symmetric matrix without positive entries off the diagonal and without negative row sums is positive semidefinite -/
theorem quad_nonneg {ι : Type*} [Fintype ι] [DecidableEq ι] (M : ι → ι → ℝ) (hsym : ∀ i j, M i j = M j i)
    (hoff : ∀ i j, i ≠ j → M i j ≤ 0) (hrow : ∀ i, 0 ≤ ∑ j, M i j) (x : ι → ℝ) : 0 ≤ ∑ i, ∑ j, x i * (M i j * x j) := by
  have e1 : ∑ i, ∑ j, x i * (M i j * x j) = ∑ i, ∑ j, (M i j * (x i * x i) / 2 + M i j * (x j * x j) / 2 - M i j * (x i - x j) ^ 2 / 2) :=
    Finset.sum_congr rfl fun i _ => Finset.sum_congr rfl fun j _ => by ring
  have e2 : ∑ i, ∑ j, M i j * (x j * x j) / 2 = ∑ i, ∑ j, M i j * (x i * x i) / 2 := by
    rw [Finset.sum_comm]
    exact Finset.sum_congr rfl fun i _ => Finset.sum_congr rfl fun j _ => by rw [hsym]
  have e3 : ∑ i, ∑ j, M i j * (x i * x i) / 2 = ∑ i, (∑ j, M i j) * (x i * x i) / 2 :=
    Finset.sum_congr rfl fun i _ => by rw [Finset.sum_mul, Finset.sum_div]
  rw [e1]
  simp only [Finset.sum_sub_distrib, Finset.sum_add_distrib]
  rw [e2, e3]
  have h1 : 0 ≤ ∑ i, (∑ j, M i j) * (x i * x i) / 2 := Finset.sum_nonneg fun i _ => by
    have := mul_nonneg (hrow i) (mul_self_nonneg (x i)); linarith
  have h2 : ∑ i, ∑ j, M i j * (x i - x j) ^ 2 / 2 ≤ 0 := Finset.sum_nonpos fun i _ => Finset.sum_nonpos fun j _ => by
    by_cases hij : i = j
    · subst hij; simp
    · have := mul_nonpos_of_nonpos_of_nonneg (hoff i j hij) (sq_nonneg (x i - x j)); linarith
  linarith

theorem lineInf_zero {t : ℝ} (ht : t ≠ 0) : lineInf 0 t = 1 / t := by
  rcases lt_or_gt_of_ne ht with h | h
  · rw [lineInf_neg_eq h]; simp
  · rw [lineInf_pos_eq h]; simp

/-- two sections see each other alike -/
def SeenAlike (X Y : GridSec) : Prop :=
  (X.rcp.y - Y.r1.y) * (X.rcp.y - Y.r2.y) = (Y.rcp.y - X.r1.y) * (Y.rcp.y - X.r2.y)

theorem cos_alike (a b h : ℝ) :
    (Real.cos a - Real.cos (b - h)) * (Real.cos a - Real.cos (b + h)) = (Real.cos b - Real.cos (a - h)) * (Real.cos b - Real.cos (a + h)) := by
  have h1 := Real.sin_sq_add_cos_sq a
  have h2 := Real.sin_sq_add_cos_sq b
  have h3 := Real.sin_sq_add_cos_sq h
  simp only [Real.cos_sub, Real.cos_add]
  have : Real.sin a ^ 2 = 1 - Real.cos a ^ 2 := by linarith
  have : Real.sin b ^ 2 = 1 - Real.cos b ^ 2 := by linarith
  have : Real.sin h ^ 2 = 1 - Real.cos h ^ 2 := by linarith
  ring_nf
  simp only [*]
  ring

theorem station_alike (co : Bool) {n : ℕ} (hn : 0 < n) (i j : ℕ) :
    (sCp co n i - sC1 co n j) * (sCp co n i - sC2 co n j) = (sCp co n j - sC1 co n i) * (sCp co n j - sC2 co n i) := by
  have hn' : (n : ℝ) ≠ 0 := by exact_mod_cast hn.ne'
  simp only [sCp_eq, sC1_eq, sC2_eq, stFn]
  cases co
  · simp; field_simp; ring
  · simp only [if_true]
    have := cos_alike (Real.pi * ((i + 1 / 2) / n)) (Real.pi * ((j + 1 / 2) / n)) (Real.pi / (2 * n))
    have e : ∀ k : ℕ, Real.pi * ((k + 1 / 2) / n) - Real.pi / (2 * n) = Real.pi * (k / n) ∧
        Real.pi * ((k + 1 / 2) / n) + Real.pi / (2 * n) = Real.pi * ((k + 1) / n) := fun k => by
      constructor <;> field_simp <;> ring
    rw [(e i).1, (e i).2, (e j).1, (e j).2] at this
    linear_combination (1 / 4) * this

theorem even_alike {p : Plane} (hp : PlaneInv p) (hs : StraightWing p) {co : Bool} {g : Grid} (hg : mkGrid p co = .ok g)
    (he : EvenSections p co) : ∀ X ∈ g.data, ∀ Y ∈ g.data, SeenAlike X Y := by
  obtain ⟨x, z, hline⟩ := hs.line
  obtain ⟨vs, hvs, hdata, -, -⟩ := mkGrid_ok hg
  have hsec : ∀ X ∈ g.data, ∃ s ∈ p.segments, ∃ y k, p.segPosition s .leftTip = .ok ⟨x, y, z⟩ ∧ k < s.n ∧
      X.r1.y = y + s.span * sC1 co s.n k ∧ X.rcp.y = y + s.span * sCp co s.n k ∧ X.r2.y = y + s.span * sC2 co s.n k := by
    intro X hX
    rw [hdata] at hX
    obtain ⟨X', hX', rfl⟩ := List.mem_map.1 hX
    obtain ⟨v, hv, hXv⟩ := List.mem_flatten.1 hX'
    obtain ⟨s, hsm, hsd⟩ := forall2_right hvs hv
    obtain ⟨y, hy⟩ := hline s hsm
    obtain ⟨rfl, h⟩ := straightSec hp hsm hsd (hs.flat s hsm) (hs.size s hsm) (hs.lifts s hsm) hy
    obtain ⟨k, hk, rfl⟩ := List.mem_map.1 hXv
    obtain ⟨h1, h2, h3, -⟩ := h k (List.mem_range.1 hk)
    exact ⟨s, hsm, y, k, hy, List.mem_range.1 hk, h1, h2, h3⟩
  intro X hX Y hY
  obtain ⟨s, hsm, y, k, hy, hk, a1, a2, a3⟩ := hsec X hX
  obtain ⟨t, htm, y', k', hy', hk', b1, b2, b3⟩ := hsec Y hY
  unfold SeenAlike
  rw [a1, a2, a3, b1, b2, b3]
  rcases he with ⟨s0, h0⟩ | ⟨rfl, h0⟩
  · rw [h0] at hsm htm
    obtain rfl := List.mem_singleton.1 hsm
    obtain rfl := List.mem_singleton.1 htm
    rw [hy] at hy'
    simp only [Except.ok.injEq, V3.mk.injEq] at hy'
    obtain ⟨-, rfl, -⟩ := hy'
    have := station_alike co (lt_of_le_of_lt (Nat.zero_le _) hk) k k'
    linear_combination (t.span ^ 2) * this
  · have hst := h0 s hsm t htm
    have hs0 : (s.n : ℝ) ≠ 0 := by exact_mod_cast (lt_of_le_of_lt (Nat.zero_le _) hk).ne'
    have ht0 : (t.n : ℝ) ≠ 0 := by exact_mod_cast (lt_of_le_of_lt (Nat.zero_le _) hk').ne'
    have e : s.span = t.span / t.n * s.n := by rw [← hst]; field_simp
    have e' : t.span = t.span / t.n * t.n := by field_simp
    set h := t.span / t.n
    simp only [sCp_eq, sC1_eq, sC2_eq, stFn, Bool.false_eq_true, if_false]
    rw [e, e']
    field_simp
    ring

variable {nm : String} {pos : Option V3} {ops : List PlaneOp} {co : Bool} {g : Grid}

/-- **C129.** The induced drag of a straight wing with evenly laid out sections is never negative in flight without sideslip, whatever its
planform, twist, airfoils and controls are. -/
theorem C129_induced_drag (hs : StraightWing (built nm pos ops)) (hg : mkGrid (built nm pos ops) co = .ok g)
    (he : EvenSections (built nm pos ops) co) (cg : V3) {d : AeroDict (Fin g.data.length)} {V r α : ℝ} (hd : Plain d V r α 0) (hV : 0 < V)
    (hr : 0 ≤ r) (hf : FromFront (built nm pos ops) α 0) (st : LLState (Fin g.data.length)) (c : Option CtrlDict)
    (R : Sol (Fin g.data.length)) (hR : (llSolve (g.geom cg) st "linear" (some d) c).1 = .ok R) : 0 ≤ R.inviscid.FD := by
  obtain ⟨w, u, x, z, hw, h⟩ := straight_flow (built_inv nm pos ops) hs hg cg hd hV hf
  obtain ⟨γ, h1, -⟩ := h.solved hd.truthy hV st c
  rw [hR] at h1
  cases h1
  have hu : u.y = 0 := by
    obtain ⟨-, k, -, hk⟩ := isWind_of hw
    have := congrArg V3.y (hk.symm.trans h.wind)
    simp at this
    exact this.resolve_left hV.ne'
  rw [(h.line.loads (F := ⟨fun _ => w, u, fun _ => r⟩) rfl (fun _ => h.wind) cg _ γ).2]
  have hal := even_alike (built_inv nm pos ops) hs hg he
  set Y : Fin g.data.length → ℝ := fun i => (g.data.get i).rcp.y
  set A : Fin g.data.length → ℝ := fun i => (g.data.get i).r1.y
  set B : Fin g.data.length → ℝ := fun i => (g.data.get i).r2.y
  have hM := h.line.lineM
  have hpos : ∀ i, 0 < B i - A i := fun i => sub_pos.2 ((h.line.ay i).trans (h.line.yb i))
  have hL : ∀ i j, lineInf u.y (Y i - A j) - lineInf u.y (Y i - B j) = -((B j - A j) / ((Y i - A j) * (Y i - B j))) := fun i j => by
    obtain ⟨n1, n2⟩ := h.line.ne i j
    rw [hu, lineInf_zero n1, lineInf_zero n2]
    change Y i - A j ≠ 0 at n1
    change Y i - B j ≠ 0 at n2
    rw [div_sub_div _ _ n1 n2, ← neg_div]
    congr 1
    ring
  have hq := quad_nonneg (fun i j => (B i - A i) * (lineInf u.y (Y i - A j) - lineInf u.y (Y i - B j)))
    (fun i j => by
      have ha : (Y i - A j) * (Y i - B j) = (Y j - A i) * (Y j - B i) := hal _ (List.get_mem _ _) _ (List.get_mem _ _)
      simp only [hL]
      rw [ha]; ring)
    (fun i j hij => mul_nonpos_of_nonneg_of_nonpos (hpos i).le (hM.off i j hij))
    (fun i => by rw [← Finset.mul_sum]; exact (mul_pos (hpos i) (hM.row i)).le) γ
  have e : ∑ i, r * nrm (cross u ey) ^ 2 * (γ i * (B i - A i) * OnLine.down u Y A B γ i) =
      r * nrm (cross u ey) ^ 2 * (1 / (4 * Real.pi)) *
        ∑ i, ∑ j, γ i * ((B i - A i) * (lineInf u.y (Y i - A j) - lineInf u.y (Y i - B j)) * γ j) := by
    rw [Finset.mul_sum]
    refine Finset.sum_congr rfl fun i _ => ?_
    unfold OnLine.down
    rw [Finset.mul_sum, Finset.mul_sum, Finset.mul_sum, Finset.mul_sum]
    exact Finset.sum_congr rfl fun j _ => by ring
  rw [e]
  have := Real.pi_pos
  positivity

/-- **C129, parasitic drag.** On a straight wing, sections with non-negative drag coefficients together have a non-negative drag, with any
sideslip. -/
theorem C129_parasitic_drag (hs : StraightWing (built nm pos ops)) (hg : mkGrid (built nm pos ops) co = .ok g)
    (cg : V3) {d : AeroDict (Fin g.data.length)} {V r α β : ℝ} (hd : Plain d V r α β) (hV : 0 < V)
    (hr : 0 ≤ r) (hf : FromFront (built nm pos ops) α β) (st : LLState (Fin g.data.length)) (c : Option CtrlDict)
    (R : Sol (Fin g.data.length)) (hR : (llSolve (g.geom cg) st "linear" (some d) c).1 = .ok R) (hcd : ∀ i, 0 ≤ R.cd i) :
    0 ≤ R.viscous.FD := by
  obtain ⟨w, u, x, z, hw, h⟩ := straight_flow (built_inv nm pos ops) hs hg cg hd hV hf
  obtain ⟨γ, h1, -⟩ := h.solved hd.truthy hV st c
  rw [hR] at h1
  cases h1
  simp only [solOf, mkLoads] at hcd ⊢
  rw [rotateAero_eq h.line.unit h.line.wind]
  simp only [sum_dot]
  refine Finset.sum_nonneg fun i _ => ?_
  have hu : dot (vInd (g.geom cg).S ⟨fun _ => w, u, fun _ => r⟩ γ i) u = V := by
    rw [h.line.vInd rfl, dot_comm, dot_sub, h.wind, dot_smul, dot_smul, dot_cross_self, ← nrm_mul_self, h.line.unit]
    ring
  unfold secDrag
  rw [smul_dot, smul_dot, hu]
  have h1 := hcd i
  have h2 := h.line.area i
  have h3 := nrm_nonneg (vInd (g.geom cg).S ⟨fun _ => w, u, fun _ => r⟩ γ i)
  have h4 := nrm_nonneg w
  positivity

/-- **C129, total drag.** -/
theorem C129_drag (hs : StraightWing (built nm pos ops)) (hg : mkGrid (built nm pos ops) co = .ok g)
    (he : EvenSections (built nm pos ops) co) (cg : V3) {d : AeroDict (Fin g.data.length)} {V r α : ℝ} (hd : Plain d V r α 0) (hV : 0 < V)
    (hr : 0 ≤ r) (hf : FromFront (built nm pos ops) α 0) (st : LLState (Fin g.data.length)) (c : Option CtrlDict)
    (R : Sol (Fin g.data.length)) (hR : (llSolve (g.geom cg) st "linear" (some d) c).1 = .ok R) (hcd : ∀ i, 0 ≤ R.cd i) :
    0 ≤ R.total.FD := by
  have h1 := C129_induced_drag hs hg he cg hd hV hr hf st c R hR
  have h2 := C129_parasitic_drag hs hg cg hd hV hr hf st c R hR hcd
  obtain ⟨w, u, x, z, -, h⟩ := straight_flow (built_inv nm pos ops) hs hg cg hd hV hf
  obtain ⟨γ, h3, -⟩ := h.solved hd.truthy hV st c
  rw [hR] at h3
  cases h3
  exact add_nonneg h1 h2

/-- the hypotheses are met: the wing with a flap of C128 in linear spacing, without sideslip -/
example (nm : String) (pos : Option V3) (c : Option CtrlDict) : ∃ g, mkGrid (built nm pos straightOps) false = .ok g ∧
    EvenSections (built nm pos straightOps) false ∧
    ∃ (d : AeroDict (Fin g.data.length)) (R : Sol (Fin g.data.length)), Plain d 10 1.2 5 0 ∧
      (llSolve (g.geom 0) (LLState.init _) "linear" (some d) c).1 = .ok R ∧ 0 ≤ R.inviscid.FD := by
  obtain ⟨g, hg⟩ := straight_grid_exists nm pos false
  have he : EvenSections (built nm pos straightOps) false := by
    right
    refine ⟨rfl, ?_⟩
    rw [straight_segments]
    intro s hs t ht
    rcases List.mem_pair.1 hs with rfl | rfl <;> rcases List.mem_pair.1 ht with rfl | rfl <;> rfl
  have hf : FromFront (built nm pos straightOps) 5 0 := ⟨by norm_num, (straight_front nm pos).2⟩
  have hd : Plain (ι := Fin g.data.length) { Vmag := some 10, rho := some 1.2, alpha := some 5 } 10 1.2 5 0 :=
    ⟨rfl, rfl, rfl, rfl, rfl, rfl, rfl, rfl⟩
  obtain ⟨R, hR⟩ := C128_solvable (straight_ops nm pos) hg 0 hd (by norm_num) hf (LLState.init _) c
  exact ⟨g, hg, he, _, R, hd, hR, C129_induced_drag (straight_ops nm pos) hg he 0 hd (by norm_num) (by norm_num) hf _ c R hR⟩

end Verif
