import Verif.Spec.Wake
import Verif.Thm.LLEquation
import Verif.Thm.StraightWing
import Verif.Thm.Slopes

/-!
# Aircraft that touch their own vortices (C140)
-/

set_option linter.unusedSectionVars false

namespace Verif
open V3

section kernel
variable {ι : Type*} [Fintype ι] [DecidableEq ι]

theorem touched_iff (S : ι → Section) {u : V3} (hu : nrm u = 1) : InfluenceDefined S u ↔ ∀ i, ¬ Touched S u i := by
  rw [C36_influence_defined S u hu]
  unfold Touched
  constructor
  · rintro ⟨h1, h2, h3⟩ i ⟨j, h | h | ⟨hij, h⟩⟩
    · exact h1 i j h
    · exact h2 i j h
    · exact h3 i j hij h
  · intro h
    exact ⟨fun i j hr => h i ⟨j, .inl hr⟩, fun i j hr => h i ⟨j, .inr (.inl hr)⟩, fun i j hij hr => h i ⟨j, .inr (.inr ⟨hij, hr⟩)⟩⟩

/-- what a linear solve makes of the arrays it holds -/
theorem solveLinear_cases (cg : V3) (S : ι → Section) (F : Flow ι) (C : Ctrl ι) (hu : nrm F.u = 1) (ha : WindAxesDefined F.u)
    (hr : RhsDefined S F) (h : ∀ i, ¬ Touched S F.u i) :
    ((∃ γ, γ ≠ 0 ∧ ∀ i, liftingLineLhs S F.v F.u γ i = 0) ∧ solveLinear cg S F C = .error .singular) ∨
    (∃ γ, LiftingLine S F.v F.u C γ ∧ (∀ γ', LiftingLine S F.v F.u C γ' → γ' = γ) ∧
      (((∃ i, vInd S F γ i = 0) ∧ solveLinear cg S F C = .error .divZero) ∨ solveLinear cg S F C = .ok (solOf cg S F C γ))) := by
  have hi := (touched_iff S hu).2 h
  have lhs := aMat_eq_lhs S F hu hi
  have rhs := bVec_eq_rhs S F C
  by_cases hdet : (aMat S F).det = 0
  · left
    refine ⟨?_, ?_⟩
    · obtain ⟨γ, h0, h1⟩ := Matrix.exists_mulVec_eq_zero_iff.2 hdet
      exact ⟨γ, h0, fun i => by rw [← lhs, h1]; rfl⟩
    · unfold solveLinear
      rw [if_neg (not_not.2 ⟨hi, hr⟩), if_pos hdet]
  · right
    have hun := isUnit_iff_ne_zero.2 hdet
    refine ⟨(aMat S F)⁻¹.mulVec (bVec S F C), fun i => ?_, fun γ' hγ' => ?_, ?_⟩
    · rw [← lhs, ← rhs, Matrix.mulVec_mulVec, Matrix.mul_nonsing_inv _ hun, Matrix.one_mulVec]
    · have e : (aMat S F).mulVec γ' = bVec S F C := funext fun i => by rw [lhs, rhs, hγ' i]
      rw [← e, Matrix.mulVec_mulVec, Matrix.nonsing_inv_mul _ hun, Matrix.one_mulVec]
    · unfold solveLinear
      rw [if_neg (not_not.2 ⟨hi, hr⟩), if_neg hdet]
      dsimp only
      by_cases hp : PostDefined F (vInd S F ((aMat S F)⁻¹.mulVec (bVec S F C)))
      · right
        rw [if_neg (not_not.2 hp)]
      · left
        rw [if_pos hp]
        refine ⟨?_, rfl⟩
        by_contra hc
        exact hp ⟨fun i h0 => hc ⟨i, nrm_eq_zero.1 h0⟩, ha⟩

theorem llSolve_run (G : LLGeom ι) (st : LLState ι) (d : AeroDict ι) (c : Option CtrlDict) (hd : d.truthy = true) {v : ι → V3} {u : V3}
    {rho : ι → ℝ} (ha : arrOf G d = .ok ⟨some v, some u, rho⟩) : (llSolve G st "linear" (some d) c).1 =
      match solveLinear G.cg G.S ⟨v, u, rho⟩ (processCtrl G st c).ctrl with
      | .ok R => .ok R
      | .error e => .error e.toPy := by
  have key := processAero_explicit G st d hd
  rw [ha] at key
  obtain ⟨rt, key⟩ := key
  obtain ⟨h1, h2, h3⟩ := processCtrl_v G { st with v := some v, u := some u, rho := rho, rates := rt } c
  have h4 : (processCtrl G { st with v := some v, u := some u, rho := rho, rates := rt } c).ctrl = (processCtrl G st c).ctrl := by
    unfold processCtrl
    split
    · split <;> rfl
    · rfl
  unfold llSolve
  rw [key]
  simp only [if_true]
  unfold runLinear
  rw [h1, h2, h3, h4]
  simp only
  cases solveLinear G.cg G.S ⟨v, u, rho⟩ (processCtrl G st c).ctrl with
  | ok R => rfl
  | error e => cases e <;> rfl

theorem wind_axes {u : V3} (hu : nrm u = 1) (hy : u.y * u.y < 1) : WindAxesDefined u := by
  have h1 : u.x * u.x + u.y * u.y + u.z * u.z = 1 := by
    have := nrm_mul_self u
    rw [hu] at this
    simp only [dot] at this
    linarith
  have h2 : nrm (cross u ey) ≠ 0 := fun h0 => by
    have h3 := nrm_mul_self (cross u ey)
    rw [h0] at h3
    simp [dot, ey] at h3
    nlinarith
  refine ⟨h2, fun h0 => ?_⟩
  have hl : nrm (liftAxis u) = 1 := nrm_unit h2
  have hd : dot (liftAxis u) u = 0 := by
    unfold liftAxis Verif.unit
    rw [smul_dot, dot_comm, dot_cross_self, mul_zero]
  have := lagrange (liftAxis u) u
  rw [← nrm_mul_self, ← nrm_mul_self, ← nrm_mul_self, h0, hd, hl, hu] at this
  norm_num at this

theorem isDirection_unique {w u u' : V3} (h : IsDirection w u) (h' : IsDirection w u') : u = u' := by
  obtain ⟨k, hk, hw, hu⟩ := h
  obtain ⟨k', hk', hw', hu'⟩ := h'
  have e : k = k' := by
    have e1 : nrm w = k := by rw [hw, nrm_smul_pos hk, hu, mul_one]
    have e2 : nrm w = k' := by rw [hw', nrm_smul_pos hk', hu', mul_one]
    rw [← e1, e2]
  subst e
  have := congrArg (fun v => (1 / k) • v) (hw.symm.trans hw')
  simpa only [smul_smul, one_div_mul_cancel hk.ne', one_smul] using this

theorem controls_unique {G : LLGeom ι} {c : CtrlDict} {C : Ctrl ι} (h : ControlsOf G c C) : C = ctrlOf G c := by
  have h' := controlsOf G c
  have k : ∀ {δ e e' : ℝ}, KeepsEffect δ e → KeepsEffect δ e' → e = e' := fun {δ e e'} h h' => by
    rcases le_or_gt |δ| 11 with hh | hh
    · rw [h.1 hh, h'.1 hh]
    · rw [h.2 hh, h'.2 hh]
  ext i
  · rw [(h i).1, (h' i).1]
  · exact k (h i).2 (h' i).2

/-- the arrays of a plain flight condition -/
theorem plain_air (G : LLGeom ι) {d : AeroDict ι} {V r α β : ℝ} (hd : Plain d V r α β) (hV : 0 < V) (hβ : |β| < 90) {w u : V3}
    (hw : IsWind V α β w) (hu : IsDirection w u) : arrOf G d = .ok ⟨some fun _ => w, some u, fun _ => r⟩ ∧ w = V • u ∧ u.y * u.y < 1 := by
  obtain ⟨w', u', k, e1, e2, e3, e4, hk, hux, huz, -⟩ := straight_wind (α := α) hV hβ
  obtain rfl := isWind_unique hV hw (isWind_of e1)
  obtain rfl := isDirection_unique hu ⟨V, hV, e3, e4⟩
  refine ⟨?_, e3, ?_⟩
  · unfold arrOf
    rw [hd.everywhere, hd.speed, hd.density]
    simp only [hd.incidence, hd.sideslip, e1, Option.map_some, Option.bind_some, e2]
    have : d.hasRates = false := by simp [AeroDict.hasRates, hd.roll, hd.pitch, hd.yaw]
    unfold rotArr
    rw [this]
    rfl
  · have := nrm_mul_self u
    rw [e4] at this
    simp only [dot, hux, huz] at this
    have h2 := Real.sin_sq_add_cos_sq (rad α)
    nlinarith [mul_pos hk hk]

/-- **C140, touched.** If a vortex touches a control point, the solve gives no numbers (`nan`), whatever the controls are and whatever was
solved before. -/
theorem C140_touched (G : LLGeom ι) {d : AeroDict ι} {V r α β : ℝ} (hd : Plain d V r α β) (hV : 0 < V) (hβ : |β| < 90) {w u : V3}
    (hw : IsWind V α β w) (hu : IsDirection w u) {i : ι} (hi : Touched G.S u i) (st : LLState ι) (c : Option CtrlDict) :
    (llSolve G st "linear" (some d) c).1 = .error .nonfinite := by
  obtain ⟨h1, -, -⟩ := plain_air G hd hV hβ hw hu
  rw [llSolve_run G st d c hd.truthy h1]
  have hu1 : nrm u = 1 := by obtain ⟨k, -, -, h⟩ := hu; exact h
  unfold solveLinear
  rw [if_pos fun h => (touched_iff G.S hu1).1 h.1 i hi]
  rfl

/-- **C140, clear.** In plain flight, if the wind meets every section from its front and no vortex touches a control point, there are three
cases. Either the lifting-line equation has no unique solution, and `solve` raises `LinAlgError`. Or it has a unique solution, but with it
the air stands still at a control point, and the results are `nan`. Or the solve returns loads, and the circulations are that solution. -/
theorem C140_clear_partial (G : LLGeom ι) {d : AeroDict ι} {V r α β : ℝ} (hd : Plain d V r α β) (hV : 0 < V) (hβ : |β| < 90) {w u : V3}
    (hw : IsWind V α β w) (hu : IsDirection w u) (hf : ∀ i, 0 < dot w (G.S i).ua) (hi : ∀ i, ¬ Touched G.S u i) (st : LLState ι)
    {c : CtrlDict} (hc : c.truthy = true) {C : Ctrl ι} (hC : ControlsOf G c C) :
    ((∃ γ, γ ≠ 0 ∧ ∀ i, liftingLineLhs G.S (fun _ => w) u γ i = 0) ∧
      (llSolve G st "linear" (some d) (some c)).1 = .error .linAlg) ∨
    ∃ γ, LiftingLine G.S (fun _ => w) u C γ ∧ (∀ γ', LiftingLine G.S (fun _ => w) u C γ' → γ' = γ) ∧
      (((∃ i, velocityAt G.S w u γ i = 0) ∧ (llSolve G st "linear" (some d) (some c)).1 = .error .nonfinite) ∨
        ∃ R, (llSolve G st "linear" (some d) (some c)).1 = .ok R ∧ R.gamma = γ) := by
  obtain ⟨h1, -, h2⟩ := plain_air G hd hV hβ hw hu
  have hu1 : nrm u = 1 := by obtain ⟨k, -, -, h⟩ := hu; exact h
  have hctrl : (processCtrl G st (some c)).ctrl = C := by
    rw [controls_unique hC]
    unfold processCtrl
    simp only [hc, if_true]
    rfl
  have hvel : ∀ γ i, vInd G.S ⟨fun _ => w, u, fun _ => r⟩ γ i = velocityAt G.S w u γ i := fun γ i => by
    unfold vInd velocityAt
    refine congrArg (w + ·) (Finset.sum_congr rfl fun j _ => ?_)
    rw [C36_influence_biotSavart G.S u hu1 ((touched_iff G.S hu1).2 hi) i j]
    simp [horseshoeVelocity]
  rw [llSolve_run G st d _ hd.truthy h1, hctrl]
  rcases solveLinear_cases G.cg G.S ⟨fun _ => w, u, fun _ => r⟩ C hu1 (wind_axes hu1 h2) (fun i => (hf i).ne') hi with
    ⟨h, h'⟩ | ⟨γ, h, h', ⟨⟨i, hz⟩, h''⟩ | h''⟩
  · left; rw [h']; exact ⟨h, rfl⟩
  · right; rw [h'']; exact ⟨γ, h, h', .inl ⟨⟨i, by rw [← hvel]; exact hz⟩, rfl⟩⟩
  · right; rw [h'']; exact ⟨γ, h, h', .inr ⟨_, rfl, rfl⟩⟩

end kernel

variable {nm : String} {pos : Option V3} {ops : List PlaneOp} {co : Bool} {g : Grid}

theorem side_by_side_seg {p : Plane} (hp : PlaneInv p) {s : Seg} (hs : s ∈ p.segments) {v : List GridSec} (hv : segData p co s = .ok v)
    (hz : 0 < s.span) (hdi : |s.dihedral| < 90) : ∃ l r, p.segPosition s .leftTip = .ok l ∧ p.segPosition s .rightTip = .ok r ∧
      (∀ X ∈ v, l.y ≤ X.r1.y ∧ X.r1.y < X.rcp.y ∧ X.rcp.y < X.r2.y ∧ X.r2.y ≤ r.y ∧
        ∃ t, 0 ≤ t ∧ t ≤ 1 ∧ X.ua = (frame s.side s.mount (t * s.washout) s.dihedral).1) ∧
      v.Pairwise fun X Y => X.r2.y ≤ Y.r1.y := by
  obtain ⟨l, r, hl, hr, hd, -, -, -, rfl⟩ := segData_ok hv
  obtain ⟨hsw, hsv⟩ := tip_diff hp hs hl hr
  have hy : (r - l).y = s.span * Real.cos (rad s.dihedral) := by
    rw [hsv]; unfold Seg.spanVec rad; cases s.side <;> rfl
  have hpos : 0 < s.span * Real.cos (rad s.dihedral) :=
    mul_pos hz (Real.cos_pos_of_mem_Ioo ⟨(rad_lt hdi).1, (rad_lt hdi).2⟩)
  set b := s.span * Real.cos (rad s.dihedral)
  have pt : ∀ t, (segPoint l r t).y = l.y + b * t := fun t => by
    rw [segPoint_eq hd, add_y, smul_y, hy]; ring
  have hr' : r.y = l.y + b := by simp only [sub_y] at hy; linarith
  refine ⟨l, r, hl, hr, fun X hX => ?_, ?_⟩
  · obtain ⟨k, hk, rfl⟩ := List.mem_map.1 hX
    rw [List.mem_range] at hk
    have e1 : (segSection co s l r k).r1.y = l.y + b * sC1 co s.n k := pt _
    have e2 : (segSection co s l r k).r2.y = l.y + b * sC2 co s.n k := pt _
    have e3 : (segSection co s l r k).rcp.y = l.y + b * sCp co s.n k := pt _
    have a1 := sC1_nonneg co hk
    have a2 := sC2_le_one co hk
    have a3 := sC1_lt_sCp co hk
    have a4 := sCp_lt_sC2 co hk
    rw [e1, e2, e3, hr']
    refine ⟨by nlinarith, by nlinarith, by nlinarith, by nlinarith, ?_⟩
    obtain ⟨m1, m2⟩ := sCp_mem co hk
    show ∃ t, 0 ≤ t ∧ t ≤ 1 ∧ (frame s.side s.mount (lerp (sCp co s.n k) (leftRight s.side 0 s.washout).1 (leftRight s.side 0 s.washout).2)
      s.dihedral).1 = _
    unfold leftRight lerp
    cases s.side
    · exact ⟨1 - sCp co s.n k, by linarith, by linarith, by simp only; ring_nf⟩
    · exact ⟨sCp co s.n k, by linarith, by linarith, by simp only; ring_nf⟩
  · rw [List.pairwise_map]
    refine List.Pairwise.imp_of_mem (R := (· < ·)) ?_ (List.pairwise_lt_range)
    intro i j hi hj hij
    rw [List.mem_range] at hi hj
    have e1 : (segSection co s l r j).r1.y = l.y + b * sC1 co s.n j := pt _
    have e2 : (segSection co s l r i).r2.y = l.y + b * sC2 co s.n i := pt _
    rw [e1, e2]
    have : sC2 co s.n i ≤ sC1 co s.n j := by
      rw [sC2_eq, sC1_eq]
      have hn : (0 : ℝ) < s.n := by exact_mod_cast (by omega : 0 < s.n)
      have hj' : ((i : ℝ) + 1) ≤ j := by exact_mod_cast hij
      have hj2 : (j : ℝ) ≤ s.n := by exact_mod_cast hj.le
      exact stFn_le co (by positivity) (by gcongr) (by rw [div_le_one hn]; exact hj2)
    nlinarith

/-- seen from the front the sections of wings side by side do not overlap -/
theorem side_by_side_grid {p : Plane} (hp : PlaneInv p) (hs : SideBySide p) (hg : mkGrid p co = .ok g) :
    (∀ X ∈ g.data, X.r1.y < X.rcp.y ∧ X.rcp.y < X.r2.y ∧ ∃ s ∈ p.segments, ∃ t, 0 ≤ t ∧ t ≤ 1 ∧
      X.ua = (frame s.side s.mount (t * s.washout) s.dihedral).1) ∧
      g.data.Pairwise fun X Y => X.r2.y ≤ Y.r1.y ∨ Y.r2.y ≤ X.r1.y := by
  obtain ⟨vs, hvs, hdata, -, -⟩ := mkGrid_ok hg
  refine ⟨fun X hX => ?_, ?_⟩
  · rw [hdata] at hX
    obtain ⟨X', hX', rfl⟩ := List.mem_map.1 hX
    obtain ⟨v, hv, hXv⟩ := List.mem_flatten.1 hX'
    obtain ⟨s, hsm, hsd⟩ := forall2_right hvs hv
    obtain ⟨l, r, -, -, h, -⟩ := side_by_side_seg hp hsm hsd (hs.size s hsm) (hs.dihedral s hsm)
    obtain ⟨-, h2, h3, -, t, ht⟩ := h X' hXv
    exact ⟨h2, h3, s, hsm, t, ht⟩
  · rw [hdata, List.pairwise_map]
    show vs.flatten.Pairwise fun X Y => X.r2.y ≤ Y.r1.y ∨ Y.r2.y ≤ X.r1.y
    rw [List.pairwise_flatten]
    refine ⟨fun v hv => ?_, ?_⟩
    · obtain ⟨s, hsm, hsd⟩ := forall2_right hvs hv
      obtain ⟨l, r, -, -, -, h⟩ := side_by_side_seg hp hsm hsd (hs.size s hsm) (hs.dihedral s hsm)
      exact h.imp fun h => .inl h
    · refine forall2_pairwise hvs hs.apart fun s hsm t htm v v' hv hv' h X hX Y hY => ?_
      obtain ⟨l, r, hl, hr, h1, -⟩ := side_by_side_seg hp hsm hv (hs.size s hsm) (hs.dihedral s hsm)
      obtain ⟨l', r', hl', hr', h2, -⟩ := side_by_side_seg hp htm hv' (hs.size t htm) (hs.dihedral t htm)
      obtain ⟨a1, -, -, a4, -⟩ := h1 X hX
      obtain ⟨b1, -, -, b4, -⟩ := h2 Y hY
      rcases h l r l' r' hl hr hl' hr' with h | h
      · exact .inl (by linarith)
      · exact .inr (by linarith)

theorem clear_ray {p u x : V3} (hu : u.y = 0) (h : x.y ≠ p.y) : ¬ OnRay p u x := by
  rintro ⟨t, -, rfl⟩
  exact h (by simp [hu])

theorem clear_seg {p q x : V3} (h1 : x.y < p.y ∧ x.y < q.y ∨ p.y < x.y ∧ q.y < x.y) : ¬ OnSegment p q x := by
  rintro ⟨t, t0, t1, rfl⟩
  simp only [add_y, smul_y, sub_y] at h1
  rcases le_total p.y q.y with hle | hle
  all_goals
    have k1 := mul_nonneg t0 (sub_nonneg.2 hle)
    have k2 := mul_nonneg (sub_nonneg.2 t1) (sub_nonneg.2 hle)
    rcases h1 with ⟨h, h'⟩ | ⟨h, h'⟩ <;> linarith

theorem ahead {m α t w di : ℝ} (side : Side) (h0 : 0 ≤ t) (h1 : t ≤ 1) (hm : |α| + |m| < 90) (hw : |α| + |m - w| < 90) :
    0 < dot ⟨-Real.cos (rad α), 0, -Real.sin (rad α)⟩ (frame side m (t * w) di).1 := by
  set τ := m - t * w with hτ
  have hle : |α| + |τ| < 90 := by
    have e : τ = (1 - t) * m + t * (m - w) := by rw [hτ]; ring
    have : |τ| ≤ (1 - t) * |m| + t * |m - w| := by
      rw [e]
      refine (abs_add_le _ _).trans ?_
      rw [abs_mul, abs_mul, abs_of_nonneg h0, abs_of_nonneg (sub_nonneg.2 h1)]
    rcases h0.eq_or_lt with h | h
    · rw [← h] at this; linarith
    · nlinarith [mul_nonneg (sub_nonneg.2 h1) (sub_pos.2 hm).le, mul_pos h (sub_pos.2 hw)]
  have hdot : dot ⟨-Real.cos (rad α), 0, -Real.sin (rad α)⟩ (frame side m (t * w) di).1 =
      Real.cos (rad α) * Real.cos (rad τ) - Real.sin (rad α) * Real.sin (rad τ) * Real.cos (rad di) := by
    unfold frame rad
    cases side <;> simp [dot, hτ] <;> ring
  rw [hdot]
  have ha : rad |α| = |rad α| := by
    unfold rad; rw [abs_div, abs_mul, abs_of_pos Real.pi_pos, abs_of_pos (by norm_num : (0:ℝ) < 180)]
  have ht : rad |τ| = |rad τ| := by
    unfold rad; rw [abs_div, abs_mul, abs_of_pos Real.pi_pos, abs_of_pos (by norm_num : (0:ℝ) < 180)]
  have hsum : 0 < Real.cos (|rad α| + |rad τ|) := by
    rw [← ha, ← ht]
    have hp := Real.pi_pos
    have e : rad |α| + rad |τ| = rad (|α| + |τ|) := by unfold rad; ring
    rw [e]
    obtain ⟨q1, q2⟩ := rad_lt (x := |α| + |τ|) (by rwa [abs_of_nonneg (by positivity)])
    exact Real.cos_pos_of_mem_Ioo ⟨q1, q2⟩
  rw [Real.cos_add, Real.cos_abs, Real.cos_abs] at hsum
  have hpi := Real.pi_pos
  have s1 : |Real.sin (rad α)| ≤ Real.sin |rad α| := by
    rcases abs_cases (rad α) with ⟨h, -⟩ | ⟨h, -⟩ <;> rw [h]
    all_goals
      have hb : |rad α| < Real.pi := by
        rw [← ha]; have := abs_nonneg τ; unfold rad; nlinarith [abs_nonneg α]
      first
        | (rw [h] at hb; rw [abs_of_nonneg (Real.sin_nonneg_of_nonneg_of_le_pi (by linarith [abs_nonneg (rad α)]) hb.le)])
        | (rw [h] at hb; rw [← abs_neg, ← Real.sin_neg, abs_of_nonneg (Real.sin_nonneg_of_nonneg_of_le_pi (by linarith [abs_nonneg (rad α)]) hb.le)])
  have s2 : |Real.sin (rad τ)| ≤ Real.sin |rad τ| := by
    rcases abs_cases (rad τ) with ⟨h, -⟩ | ⟨h, -⟩ <;> rw [h]
    all_goals
      have hb : |rad τ| < Real.pi := by
        rw [← ht]; have := abs_nonneg α; unfold rad; nlinarith [abs_nonneg τ]
      first
        | (rw [h] at hb; rw [abs_of_nonneg (Real.sin_nonneg_of_nonneg_of_le_pi (by linarith [abs_nonneg (rad τ)]) hb.le)])
        | (rw [h] at hb; rw [← abs_neg, ← Real.sin_neg, abs_of_nonneg (Real.sin_nonneg_of_nonneg_of_le_pi (by linarith [abs_nonneg (rad τ)]) hb.le)])
  have h3 : Real.sin (rad α) * Real.sin (rad τ) * Real.cos (rad di) ≤ Real.sin |rad α| * Real.sin |rad τ| := by
    refine (le_abs_self _).trans ?_
    rw [abs_mul, abs_mul]
    have hc := Real.abs_cos_le_one (rad di)
    calc |Real.sin (rad α)| * |Real.sin (rad τ)| * |Real.cos (rad di)| ≤ |Real.sin (rad α)| * |Real.sin (rad τ)| * 1 :=
          mul_le_mul_of_nonneg_left hc (by positivity)
      _ ≤ _ := by rw [mul_one]; exact mul_le_mul s1 s2 (abs_nonneg _) ((abs_nonneg _).trans s1)
  linarith

/-- **C140, side by side.** Wings that lie side by side as seen from the front, with any sweep and dihedral, are clear of their vortices in
flight without sideslip, and the wind meets every section from its front: the three cases of `C140_clear_partial` are all there is. -/
theorem C140_side_by_side_partial (hs : SideBySide (built nm pos ops)) (hg : mkGrid (built nm pos ops) co = .ok g) (cg : V3)
    {V α : ℝ} (hV : 0 < V) (ha : AheadOf (built nm pos ops) α) {w u : V3} (hw : IsWind V α 0 w) (hu : IsDirection w u) :
    (∀ i, ¬ Touched (g.geom cg).S u i) ∧ ∀ i, 0 < dot w ((g.geom cg).S i).ua := by
  obtain ⟨w', u', k, e1, e2, e3, e4, hk, hux, huz, huy⟩ := straight_wind (α := α) hV (β := 0) (by norm_num)
  obtain rfl := isWind_unique hV hw (isWind_of e1)
  obtain rfl := isDirection_unique hu ⟨V, hV, e3, e4⟩
  have hy : u.y = 0 := by rw [huy]; simp [rad]
  obtain ⟨h1, h2⟩ := side_by_side_grid (built_inv nm pos ops) hs hg
  refine ⟨fun i => ?_, fun i => ?_⟩
  · rintro ⟨j, h⟩
    obtain ⟨a1, a2, -⟩ := h1 _ (List.get_mem g.data i)
    obtain ⟨b1, b2, -⟩ := h1 _ (List.get_mem g.data j)
    have key : i = j ∨ (g.data.get i).r2.y ≤ (g.data.get j).r1.y ∨ (g.data.get j).r2.y ≤ (g.data.get i).r1.y := by
      rcases lt_trichotomy i j with hlt | rfl | hlt
      · exact .inr (List.pairwise_iff_get.1 h2 i j hlt)
      · exact .inl rfl
      · exact .inr (List.pairwise_iff_get.1 h2 j i hlt).symm
    have r1 : ((g.geom cg).S i).rcp.y ≠ ((g.geom cg).S j).r1.y := by
      show (g.data.get i).rcp.y ≠ (g.data.get j).r1.y
      rcases key with rfl | h | h
      · exact a1.ne'
      · exact (by linarith : (g.data.get i).rcp.y < (g.data.get j).r1.y).ne
      · exact (by linarith : (g.data.get j).r1.y < (g.data.get i).rcp.y).ne'
    have r2 : ((g.geom cg).S i).rcp.y ≠ ((g.geom cg).S j).r2.y := by
      show (g.data.get i).rcp.y ≠ (g.data.get j).r2.y
      rcases key with rfl | h | h
      · exact a2.ne
      · exact (by linarith : (g.data.get i).rcp.y < (g.data.get j).r2.y).ne
      · exact (by linarith : (g.data.get j).r2.y < (g.data.get i).rcp.y).ne'
    rcases h with h | h | ⟨hij, h⟩
    · exact clear_ray hy r1 h
    · exact clear_ray hy r2 h
    · refine clear_seg ?_ h
      show (g.data.get i).rcp.y < (g.data.get j).r1.y ∧ (g.data.get i).rcp.y < (g.data.get j).r2.y ∨
        (g.data.get j).r1.y < (g.data.get i).rcp.y ∧ (g.data.get j).r2.y < (g.data.get i).rcp.y
      rcases key with h | h | h
      · exact absurd h hij
      · exact .inl ⟨by linarith, by linarith⟩
      · exact .inr ⟨by linarith, by linarith⟩
  · obtain ⟨-, -, s, hsm, t, t0, t1, hua⟩ := h1 _ (List.get_mem g.data i)
    have hue : u = k • ⟨-Real.cos (rad α), 0, -Real.sin (rad α)⟩ := by
      ext <;> simp [hux, hy, huz]
    show 0 < dot w (g.data.get i).ua
    rw [hua, e3, hue, smul_dot, smul_dot]
    exact mul_pos hV (mul_pos hk (ahead s.side t0 t1 (ha s hsm).1 (ha s hsm).2))

/-- an aircraft with a canard of half the span of the wing, three units ahead of the wing and at its height; `m` sections on each side of
the canard, `2 k + 1` on each side of the wing -/
noncomputable def canardOps (m k : ℕ) : List PlaneOp :=
  [.addWing "Canard" none "tip" "both" { semispan := some 2, position := some ⟨3, 0, 0⟩, grid := some m },
   .addWing "Wing" none "tip" "both" { semispan := some 4, grid := some (2 * k + 1) }]

/-- its wings -/
noncomputable def canardSeg (m : ℕ) (side : Side) : Seg :=
  (mkSeg (side.str ++ "_Canard") side { semispan := some 2, position := some ⟨3, 0, 0⟩, grid := some m }).connectTo .plane "tip"

@[inherit_doc canardSeg] noncomputable def mainSeg (k : ℕ) (side : Side) : Seg :=
  (mkSeg (side.str ++ "_Wing") side { semispan := some 4, grid := some (2 * k + 1) }).connectTo .plane "tip"

theorem canard_segments (m k : ℕ) : (built nm none (canardOps m k)).segments =
    [canardSeg m .left, canardSeg m .right, mainSeg k .left, mainSeg k .right] := rfl

theorem canard_grid_exists {m : ℕ} (hm : 0 < m) (k : ℕ) (co : Bool) : ∃ g, mkGrid (built nm none (canardOps m k)) co = .ok g := by
  apply C82_grid_exists
  constructor
  · intro pre name parent location side d post h hv hp
    have : PlaneOp.addWing name (some parent) location side d ∈ canardOps m k := by rw [h]; simp
    simp [canardOps] at this
  all_goals
    first
    | (intro name parent location side d h _
       simp [canardOps] at h
       rcases h with ⟨-, -, -, -, rfl⟩ | ⟨-, -, -, -, rfl⟩ <;> simp [hm])
    | (intro id props h _
       simp [canardOps] at h)

theorem canard_tip (m k : ℕ) : (built nm none (canardOps m k)).segPosition (canardSeg m .right) .leftTip = .ok ⟨3, 0, 0⟩ ∧
    (built nm none (canardOps m k)).segPosition (canardSeg m .right) .rightTip = .ok ⟨3, 2, 0⟩ ∧
    (built nm none (canardOps m k)).segPosition (canardSeg m .left) .leftTip = .ok ⟨3, -2, 0⟩ ∧
    (built nm none (canardOps m k)).segPosition (mainSeg k .right) .leftTip = .ok ⟨0, 0, 0⟩ ∧
    (built nm none (canardOps m k)).segPosition (mainSeg k .right) .rightTip = .ok ⟨0, 4, 0⟩ ∧
    (built nm none (canardOps m k)).segPosition (mainSeg k .left) .leftTip = .ok ⟨0, -4, 0⟩ := by
  have hp : (built nm none (canardOps m k)).getPosition = 0 := rfl
  refine ⟨?_, ?_, ?_, ?_, ?_, ?_⟩ <;>
    simp only [Plane.segPosition, segPos, canardSeg, mainSeg, mkSeg, Seg.connectTo, hp, Seg.tipOffset, addOff] <;> simp
  all_goals ext <;> simp

/-- **C140, canard.** The air that leaves the tip of the canard passes through a control point of the wing, and in level flight without
incidence every solve gives `nan`, however many sections there are. -/
theorem C140_canard {m : ℕ} (hm : 0 < m) (k : ℕ) (hg : mkGrid (built nm none (canardOps m k)) co = .ok g) (cg : V3)
    {d : AeroDict (Fin g.data.length)} {V r : ℝ} (hd : Plain d V r 0 0) (hV : 0 < V) (st : LLState (Fin g.data.length))
    (c : Option CtrlDict) : (llSolve (g.geom cg) st "linear" (some d) c).1 = .error .nonfinite := by
  obtain ⟨t1, t2, -, t4, t5, -⟩ := canard_tip (nm := nm) m k
  -- the last section of the canard
  obtain ⟨X, hX⟩ := sectionOf_exists hg (k := 1) (s := canardSeg m .right) rfl (i := m - 1) (show m - 1 < m by omega)
  obtain ⟨Y, hY⟩ := sectionOf_exists hg (k := 3) (s := mainSeg k .right) rfl (i := k) (show k < 2 * k + 1 by omega)
  have eX : X.r2 = ⟨3, 2, 0⟩ := by
    obtain ⟨-, l, r, hl, hr, hn, -, -, rfl⟩ := sectionOf_eq hg hX
    rw [t1] at hl; rw [t2] at hr
    cases hl; cases hr
    show segPoint _ _ (sC2 co m (m - 1)) = _
    rw [segPoint_eq hn, sC2_last co (by omega)]
    ext <;> simp
  have eY : Y.rcp = ⟨0, 2, 0⟩ := by
    obtain ⟨-, l, r, hl, hr, hn, -, -, rfl⟩ := sectionOf_eq hg hY
    rw [t4] at hl; rw [t5] at hr
    cases hl; cases hr
    show segPoint _ _ (sCp co (2 * k + 1) k) = _
    have e : sCp co (2 * k + 1) k = 1 / 2 := by
      rw [sCp_eq]
      have : ((k : ℝ) + 1 / 2) / ((2 * k + 1 : ℕ) : ℝ) = 1 / 2 := by
        push_cast
        field_simp
      rw [this]
      have := stFn_symm co (1 / 2)
      norm_num at this
      linarith
    rw [segPoint_eq hn, e]
    ext <;> simp
    norm_num
  obtain ⟨-, a, b, -, -, hgX⟩ := hX
  obtain ⟨-, a', b', -, -, hgY⟩ := hY
  obtain ⟨hj, hX'⟩ := List.getElem?_eq_some_iff.1 hgX
  obtain ⟨hi, hY'⟩ := List.getElem?_eq_some_iff.1 hgY
  have hw : freestream V 0 0 = some ⟨-V, 0, 0⟩ := by
    unfold freestream
    simp [rad]
  refine C140_touched (g.geom cg) hd hV (by norm_num) (w := ⟨-V, 0, 0⟩) (u := ⟨-1, 0, 0⟩) (isWind_of hw) ⟨V, hV, ?_, ?_⟩
    (i := ⟨_, hi⟩) ⟨⟨_, hj⟩, .inr (.inl ⟨3, by norm_num, ?_⟩)⟩ st c
  · ext <;> simp
  · rw [nrm_x]; norm_num
  · show (g.data.get ⟨_, hi⟩).rcp = (g.data.get ⟨_, hj⟩).r2 + _
    have e1 : (g.data.get ⟨_, hi⟩) = Y := hY'
    have e2 : (g.data.get ⟨_, hj⟩) = X := hX'
    rw [e1, e2, eX, eY]
    ext <;> simp

/-- **C140 is false in general.** There are aircraft with unswept wings of positive size and lift slope, none of which touch each other, that
cannot be analysed in level flight although the wind meets all sections from the front. -/
theorem C140_refuted : ¬ ∀ (nm : String) (pos : Option V3) (ops : List PlaneOp) (co : Bool) (g : Grid),
    mkGrid (built nm pos ops) co = .ok g →
    (∀ s ∈ (built nm pos ops).segments, s.sweep = 0 ∧ s.dihedral = 0 ∧ 0 < s.span ∧ 0 < s.rootChord ∧ 0 < s.tipChord ∧
      0 < s.root.cla ∧ 0 < s.tip.cla) →
    ((built nm pos ops).segments.Pairwise fun s t => ∀ a b, (built nm pos ops).segPosition s .leftTip = .ok a →
      (built nm pos ops).segPosition t .leftTip = .ok b → a.x ≠ b.x ∨ a.y + s.span ≤ b.y ∨ b.y + t.span ≤ a.y) →
    ∀ (cg : V3) (d : AeroDict (Fin g.data.length)) (V r : ℝ), Plain d V r 0 0 → 0 < V → 0 < r → FromFront (built nm pos ops) 0 0 →
      ∀ (st : LLState (Fin g.data.length)) (c : Option CtrlDict), ∃ R, (llSolve (g.geom cg) st "linear" (some d) c).1 = .ok R := by
  intro h
  obtain ⟨g, hg⟩ := canard_grid_exists (nm := "plane") (m := 40) (by norm_num) 20 true
  obtain ⟨t1, -, t3, t4, -, t6⟩ := canard_tip (nm := "plane") 40 20
  have hd : Plain (ι := Fin g.data.length) { Vmag := some 10, rho := some 1 } 10 1 0 0 := ⟨rfl, rfl, rfl, rfl, rfl, rfl, rfl, rfl⟩
  have q1 : ∀ s ∈ (built "plane" none (canardOps 40 20)).segments, s.sweep = 0 ∧ s.dihedral = 0 ∧ 0 < s.span ∧ 0 < s.rootChord ∧
      0 < s.tipChord ∧ 0 < s.root.cla ∧ 0 < s.tip.cla := by
    intro s hs
    rw [canard_segments] at hs
    simp only [List.mem_cons, List.not_mem_nil, or_false] at hs
    rcases hs with rfl | rfl | rfl | rfl <;>
      simp [canardSeg, mainSeg, mkSeg, Seg.connectTo, Airfoil.default] <;> norm_num
  have q2 : (built "plane" none (canardOps 40 20)).segments.Pairwise fun s t => ∀ a b,
      (built "plane" none (canardOps 40 20)).segPosition s .leftTip = .ok a →
      (built "plane" none (canardOps 40 20)).segPosition t .leftTip = .ok b → a.x ≠ b.x ∨ a.y + s.span ≤ b.y ∨ b.y + t.span ≤ a.y := by
    rw [canard_segments]
    have s1 : ∀ side, (canardSeg 40 side).span = 2 := fun _ => rfl
    have s2 : ∀ side, (mainSeg 20 side).span = 4 := fun _ => rfl
    simp only [List.pairwise_cons, List.mem_cons, List.not_mem_nil, or_false, forall_eq_or_imp, forall_eq, false_imp_iff, implies_true,
      List.Pairwise.nil, and_true, t1, t3, t4, t6, Except.ok.injEq, s1, s2]
    refine ⟨⟨?_, ?_, ?_⟩, ⟨?_, ?_⟩, ?_⟩
    all_goals
      rintro a b rfl rfl
      norm_num
  have q3 : FromFront (built "plane" none (canardOps 40 20)) 0 0 := by
    refine ⟨by norm_num, fun s hs => ?_⟩
    rw [canard_segments] at hs
    simp only [List.mem_cons, List.not_mem_nil, or_false] at hs
    rcases hs with rfl | rfl | rfl | rfl <;> simp [canardSeg, mainSeg, mkSeg, Seg.connectTo]
  obtain ⟨R, hR⟩ := h "plane" none (canardOps 40 20) true g hg q1 q2 0 _ 10 1 hd (by norm_num) (by norm_num) q3 (LLState.init _) none
  rw [C140_canard (by norm_num) 20 hg 0 hd (by norm_num)] at hR
  cases hR

-- the hypotheses of the canard theorem are met: default numbers of sections on the canard, 41 on the wing
example (cosine : Bool) : ∃ g, mkGrid (built "plane" none (canardOps 40 20)) cosine = .ok g ∧
    Plain (ι := Fin g.data.length) { Vmag := some 10, rho := some 1 } 10 1 0 0 := by
  obtain ⟨g, hg⟩ := canard_grid_exists (nm := "plane") (m := 40) (by norm_num) 20 cosine
  exact ⟨g, hg, rfl, rfl, rfl, rfl, rfl, rfl, rfl, rfl⟩

/-- a swept wing with dihedral and washout, and winglets at its tips -/
noncomputable def clearOps : List PlaneOp :=
  [.addWing "Main" none "tip" "both" { sweep := some 30, dihedral := some 5, washout := some 2, mountAngle := some 3 },
   .addWing "Winglet" (some "Main") "tip" "both" { semispan := some 1, dihedral := some 80, grid := some 7 }]

/-- its wings -/
noncomputable def clearMain (side : Side) : Seg :=
  (mkSeg (side.str ++ "_Main") side { sweep := some 30, dihedral := some 5, washout := some 2, mountAngle := some 3 }).connectTo .plane "tip"

@[inherit_doc clearMain] noncomputable def clearWinglet (side : Side) : Seg :=
  (mkSeg (side.str ++ "_Winglet") side { semispan := some 1, dihedral := some 80, grid := some 7 }).connectTo (.wing 0) "tip"

theorem clear_segments : (built nm none clearOps).segments =
    [clearMain .left, clearMain .right, clearWinglet .left, clearWinglet .right] := rfl

theorem clear_tips (a : V3) :
    ((built nm none clearOps).segPosition (clearMain .left) .leftTip = .ok a → a.y = -(4 * Real.cos (5 * Real.pi / 180))) ∧
    ((built nm none clearOps).segPosition (clearMain .left) .rightTip = .ok a → a.y = 0) ∧
    ((built nm none clearOps).segPosition (clearMain .right) .leftTip = .ok a → a.y = 0) ∧
    ((built nm none clearOps).segPosition (clearMain .right) .rightTip = .ok a → a.y = 4 * Real.cos (5 * Real.pi / 180)) ∧
    ((built nm none clearOps).segPosition (clearWinglet .left) .leftTip = .ok a →
      a.y = -Real.cos (80 * Real.pi / 180) - 4 * Real.cos (5 * Real.pi / 180)) ∧
    ((built nm none clearOps).segPosition (clearWinglet .left) .rightTip = .ok a → a.y = -(4 * Real.cos (5 * Real.pi / 180))) ∧
    ((built nm none clearOps).segPosition (clearWinglet .right) .leftTip = .ok a → a.y = 4 * Real.cos (5 * Real.pi / 180)) ∧
    ((built nm none clearOps).segPosition (clearWinglet .right) .rightTip = .ok a →
      a.y = Real.cos (80 * Real.pi / 180) + 4 * Real.cos (5 * Real.pi / 180)) := by
  have hp : (built nm none clearOps).getPosition = 0 := rfl
  have hh : (built nm none clearOps).heap = [.both (clearMain .left) (clearMain .right), .both (clearWinglet .left) (clearWinglet .right)] := rfl
  have h30 : Real.cos (30 * Real.pi / 180) ≠ 0 := by
    apply ne_of_gt
    apply Real.cos_pos_of_mem_Ioo
    have := Real.pi_pos
    constructor <;> linarith
  have hl : TipAt.ofStr (Side.left.str ++ "_" ++ "tip") = .ok .leftTip := rfl
  have hr : TipAt.ofStr (Side.right.str ++ "_" ++ "tip") = .ok .rightTip := rfl
  refine ⟨?_, ?_, ?_, ?_, ?_, ?_, ?_, ?_⟩
  all_goals
    intro h
    simp only [Plane.segPosition, segPos, hh, Wing.leftSeg, Wing.rightSeg, clearMain, clearWinglet, mkSeg, Seg.connectTo, hp, Seg.tipOffset,
      addOff, hl, hr] at h
    simp [h30, hl, hr, segPos, hp, Seg.tipOffset, addOff] at h
    subst h
    try simp
    try ring

theorem clear_sideBySide : SideBySide (built nm none clearOps) := by
  have hpi := Real.pi_pos
  have c5 : 0 < Real.cos (5 * Real.pi / 180) := Real.cos_pos_of_mem_Ioo ⟨by linarith, by linarith⟩
  have c80 : 0 < Real.cos (80 * Real.pi / 180) := Real.cos_pos_of_mem_Ioo ⟨by linarith, by linarith⟩
  refine ⟨fun s hs => ?_, fun s hs => ?_, ?_⟩
  · rw [clear_segments] at hs
    simp only [List.mem_cons, List.not_mem_nil, or_false] at hs
    rcases hs with rfl | rfl | rfl | rfl <;> simp [clearMain, clearWinglet, mkSeg, Seg.connectTo]
  · rw [clear_segments] at hs
    simp only [List.mem_cons, List.not_mem_nil, or_false] at hs
    rcases hs with rfl | rfl | rfl | rfl <;> norm_num [clearMain, clearWinglet, mkSeg, Seg.connectTo, abs_lt]
  · rw [clear_segments]
    have T := fun a => clear_tips (nm := nm) a
    simp only [List.pairwise_cons, List.mem_cons, List.not_mem_nil, or_false, forall_eq_or_imp, forall_eq, false_imp_iff, implies_true,
      List.Pairwise.nil, and_true]
    refine ⟨⟨?_, ?_, ?_⟩, ⟨?_, ?_⟩, ?_⟩ <;> intro a b a' b' h1 h2 h3 h4
    · left; rw [(T b).2.1 h2, (T a').2.2.1 h3]
    · right; rw [(T b').2.2.2.2.2.1 h4, (T a).1 h1]
    · left; rw [(T b).2.1 h2, (T a').2.2.2.2.2.2.1 h3]; positivity
    · right; rw [(T b').2.2.2.2.2.1 h4, (T a).2.2.1 h1]; linarith
    · left; rw [(T b).2.2.2.1 h2, (T a').2.2.2.2.2.2.1 h3]
    · left; rw [(T b).2.2.2.2.2.1 h2, (T a').2.2.2.2.2.2.1 h3]; linarith

theorem clear_ahead : AheadOf (built nm none clearOps) 10 := by
  intro s hs
  rw [clear_segments] at hs
  simp only [List.mem_cons, List.not_mem_nil, or_false] at hs
  rcases hs with rfl | rfl | rfl | rfl <;> norm_num [clearMain, clearWinglet, mkSeg, Seg.connectTo]

theorem clear_grid_exists (co : Bool) : ∃ g, mkGrid (built nm none clearOps) co = .ok g := by
  apply C82_grid_exists
  constructor
  · intro pre name parent location side d post h hv hp
    match pre, h with
    | [], h => simp [clearOps] at h
    | [x], h =>
      simp [clearOps] at h
      obtain ⟨rfl, ⟨rfl, rfl, rfl, rfl, -⟩, -⟩ := h
      exact ⟨rfl, by decide, [], none, "tip", "both", _, [], rfl, .inl rfl, .inl rfl, by simp⟩
    | x :: y :: pre, h =>
      have := congrArg List.length h
      simp [clearOps] at this
  all_goals
    first
    | (intro name parent location side d h _
       simp [clearOps] at h
       rcases h with ⟨-, -, -, -, rfl⟩ | ⟨-, -, -, -, rfl⟩ <;> simp
       done)
    | (intro name parent location side d h _
       have h30 : Real.cos (30 * Real.pi / 180) ≠ 0 := by
         apply ne_of_gt
         apply Real.cos_pos_of_mem_Ioo
         have := Real.pi_pos
         constructor <;> linarith
       simp [clearOps] at h
       rcases h with ⟨-, -, -, -, rfl⟩ | ⟨-, -, -, -, rfl⟩ <;> simp [h30])
    | (intro id props h _
       simp [clearOps] at h)

-- the hypotheses of the other theorems are met by this aircraft at 10 degrees of incidence
example (cosine : Bool) : ∃ g, mkGrid (built "plane" none clearOps) cosine = .ok g ∧
    ∃ (w u : V3), IsWind 50 10 0 w ∧ IsDirection w u ∧ ∃ d : AeroDict (Fin g.data.length), Plain d 50 1.2 10 0 ∧
      (∀ i, ¬ Touched (g.geom 0).S u i) ∧ (∀ i, 0 < dot w ((g.geom 0).S i).ua) ∧
      ∃ C, ControlsOf (g.geom 0) { aileron := some 5 } C := by
  obtain ⟨g, hg⟩ := clear_grid_exists (nm := "plane") cosine
  obtain ⟨w, u, k, e1, e2, e3, e4, -⟩ := straight_wind (V := 50) (α := 10) (β := 0) (by norm_num) (by norm_num)
  obtain ⟨h1, h2⟩ := C140_side_by_side_partial clear_sideBySide hg 0 (by norm_num : (0:ℝ) < 50) clear_ahead (isWind_of e1)
    ⟨50, by norm_num, e3, e4⟩
  exact ⟨g, hg, w, u, isWind_of e1, ⟨50, by norm_num, e3, e4⟩, { Vmag := some 50, rho := some 1.2, alpha := some 10 },
    ⟨rfl, rfl, rfl, rfl, rfl, rfl, rfl, rfl⟩, h1, h2, _, controlsOf _ _⟩

end Verif
