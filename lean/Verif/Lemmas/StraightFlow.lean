import Verif.Lemmas.StraightGrid

/-!
# Lemmas: solving the lifting line of a straight wing
-/

set_option linter.unusedSectionVars false

namespace Verif
open V3

theorem rad_lt {x : ℝ} (h : |x| < 90) : -(Real.pi / 2) < rad x ∧ rad x < Real.pi / 2 := by
  obtain ⟨h1, h2⟩ := abs_lt.1 h
  have hp := Real.pi_pos
  unfold rad
  constructor <;> nlinarith

/-- the wind as a unit vector, for sideslip of less than 90 degrees -/
theorem straight_wind {V α β : ℝ} (hV : 0 < V) (hβ : |β| < 90) : ∃ (w u : V3) (k : ℝ), freestream V α β = some w ∧
    normalise w = some u ∧ w = V • u ∧ nrm u = 1 ∧ 0 < k ∧ u.x = -(k * Real.cos (rad α)) ∧ u.z = -(k * Real.sin (rad α)) ∧
    u.y = -(k * (Real.cos (rad α) * Real.tan (rad β))) := by
  classical
  obtain ⟨b1, b2⟩ := rad_lt hβ
  have hcb := Real.cos_pos_of_mem_Ioo ⟨b1, b2⟩
  set D := Real.sqrt (1 - Real.sin (rad α) * Real.sin (rad α) * Real.sin (rad β) * Real.sin (rad β)) with hD
  have hD0 : 0 < D := by
    apply Real.sqrt_pos.2
    have h1 := Real.sin_sq_add_cos_sq (rad α)
    have h2 := Real.sin_sq_add_cos_sq (rad β)
    have h3 : 0 < Real.cos (rad β) ^ 2 := by positivity
    nlinarith [mul_nonneg (sq_nonneg (Real.cos (rad α))) (sq_nonneg (Real.sin (rad β)))]
  have hw : freestream V α β = some ⟨V / D * (-Real.cos (rad α) * Real.cos (rad β)), V / D * (-Real.cos (rad α) * Real.sin (rad β)),
      V / D * (-Real.sin (rad α) * Real.cos (rad β))⟩ := by
    unfold freestream
    simp only
    rw [if_neg hD0.ne']
  set w : V3 := ⟨V / D * (-Real.cos (rad α) * Real.cos (rad β)), V / D * (-Real.cos (rad α) * Real.sin (rad β)),
      V / D * (-Real.sin (rad α) * Real.cos (rad β))⟩ with hwd
  have hn : nrm w = V := by
    have := ((C23_freestream V α β).2 w hw).1
    rw [this, abs_of_pos hV]
  refine ⟨w, (1 / V) • w, Real.cos (rad β) / D, hw, ?_, ?_, ?_, by positivity, ?_, ?_, ?_⟩
  · unfold normalise unit
    rw [hn, if_neg hV.ne']
  · rw [smul_smul, mul_one_div_cancel hV.ne', one_smul]
  · rw [nrm_smul_pos (by positivity), hn]; field_simp
  · simp only [hwd, smul_x]; field_simp
  · simp only [hwd, smul_z]; field_simp
  · simp only [hwd, smul_y, Real.tan_eq_sin_div_cos]; field_simp

/-- what a solve of a straight wing in a plain flight condition computes -/
structure StraightFlow (g : Grid) (cg : V3) (d : AeroDict (Fin g.data.length)) (V r α : ℝ) (w u : V3) (x z : ℝ) : Prop where
  line : OnLine (g.geom cg).S u x z (fun i => (g.data.get i).rcp.y) (fun i => (g.data.get i).r1.y) (fun i => (g.data.get i).r2.y)
  wind : w = V • u
  air : arrOf (g.geom cg) d = .ok ⟨some fun _ => w, some u, fun _ => r⟩
  incidence : ∀ i, alphaLoc (g.geom cg).S ⟨fun _ => w, u, fun _ => r⟩ i = rad (α + ((g.geom cg).S i).twist)
  airfoil : ∀ i, 0 ≤ ((g.geom cg).S i).left.cla ∧ 0 ≤ ((g.geom cg).S i).right.cla ∧ 0 < ((g.geom cg).S i).sp ∧
    ((g.geom cg).S i).sp < 1 ∧ 0 ≤ ((g.geom cg).S i).flapEff

theorem straight_flow {p : Plane} (hp : PlaneInv p) (hs : StraightWing p) {co : Bool} {g : Grid} (hg : mkGrid p co = .ok g) (cg : V3)
    {d : AeroDict (Fin g.data.length)} {V r α β : ℝ} (hd : Plain d V r α β) (hV : 0 < V) (hf : FromFront p α β) :
    ∃ w u x z, freestream V α β = some w ∧ StraightFlow g cg d V r α w u x z := by
  obtain ⟨w, u, k, hw, hu, hwu, hu1, hk, hux, huz, huy⟩ := straight_wind (α := α) hV hf.1
  obtain ⟨x, z, hX, hP⟩ := straight_grid hp hs hg
  have hmem : ∀ i : Fin g.data.length, g.data.get i ∈ g.data := fun i => List.get_mem _ _
  have hang : ∀ i : Fin g.data.length, |α + (g.data.get i).twist| < 90 := fun i => by
    obtain ⟨s, hsm, h⟩ := hX _ (hmem i)
    obtain ⟨t, t0, t1, ht⟩ := h.twist
    obtain ⟨q1, q2⟩ := hf.2 s hsm
    rw [abs_lt] at q1 q2 ⊢
    rw [ht]
    have e : α + ((1 - t) * s.mount + t * (s.mount - s.washout)) = (1 - t) * (α + s.mount) + t * (α + s.mount - s.washout) := by ring
    rw [e]
    constructor
    · nlinarith [mul_nonneg (sub_nonneg.2 t1) (sub_pos.2 q1.1).le, mul_nonneg t0 (sub_pos.2 q2.1).le,
        mul_pos_of_neg_of_neg (sub_neg.2 q1.1) (sub_neg.2 q2.1)]
    · rcases t0.eq_or_lt with h0 | h0
      · rw [← h0]; linarith
      · nlinarith [mul_nonneg (sub_nonneg.2 t1) (sub_pos.2 q1.2).le, mul_pos h0 (sub_pos.2 q2.2)]
  have hcos : ∀ i : Fin g.data.length, 0 < Real.cos (rad (α + (g.data.get i).twist)) := fun i => by
    obtain ⟨a1, a2⟩ := rad_lt (hang i)
    exact Real.cos_pos_of_mem_Ioo ⟨a1, a2⟩
  have hadd : ∀ t, rad (α + t) = rad α + rad t := fun t => by unfold rad; ring
  have hua : ∀ i : Fin g.data.length, dot u (g.data.get i).ua = k * Real.cos (rad (α + (g.data.get i).twist)) := fun i => by
    obtain ⟨s, -, h⟩ := hX _ (hmem i)
    rw [h.ua, hadd, Real.cos_add]
    simp only [dot, hux, huz]; ring
  have hun : ∀ i : Fin g.data.length, dot u (g.data.get i).un = k * Real.sin (rad (α + (g.data.get i).twist)) := fun i => by
    obtain ⟨s, -, h⟩ := hX _ (hmem i)
    rw [h.un, hadd, Real.sin_add]
    simp only [dot, hux, huz]; ring
  have hty : u.y * u.y < 1 := by
    have := nrm_mul_self u
    rw [hu1] at this
    simp only [dot, hux, huz] at this
    have h2 := Real.sin_sq_add_cos_sq (rad α)
    nlinarith [mul_pos hk hk]
  refine ⟨w, u, x, z, hw, ?_, hwu, ?_, fun i => ?_, fun i => ?_⟩
  · refine ⟨fun i => ?_, fun i => ?_, fun i => ?_, fun i => ?_, fun i => ?_, fun i j hij => ?_, fun i => ?_, fun i => ?_, hu1,
      abs_lt.1 (abs_lt_of_sq_lt_sq (by nlinarith) zero_le_one), fun i => ?_, fun i => ?_, fun i => ?_⟩
    all_goals obtain ⟨s, -, h⟩ := hX _ (hmem i)
    · exact h.rcp
    · exact h.r1
    · exact h.r2
    · exact h.ay
    · exact h.yb
    · rcases lt_or_gt_of_ne hij with hlt | hlt
      · exact List.pairwise_iff_get.1 hP i j hlt
      · exact (List.pairwise_iff_get.1 hP j i hlt).symm
    · exact h.area
    · exact h.cla
    · show (g.data.get i).ua.y = 0
      rw [h.ua]
    · show dot (g.data.get i).un (cross u ey) = dot u (g.data.get i).ua
      rw [h.ua, h.un]
      simp [dot, ey]; ring
    · show 0 < dot u (g.data.get i).ua
      rw [hua]; exact mul_pos hk (hcos i)
  · unfold arrOf
    rw [hd.everywhere, hd.speed, hd.density]
    simp only [hd.incidence, hd.sideslip, hw, Option.map_some, Option.bind_some, hu]
    have : d.hasRates = false := by simp [AeroDict.hasRates, hd.roll, hd.pitch, hd.yaw]
    unfold rotArr
    rw [this]
    rfl
  · obtain ⟨a1, a2⟩ := rad_lt (hang i)
    show Real.arctan (dot w (g.data.get i).un / dot w (g.data.get i).ua) = _
    rw [hwu, smul_dot, smul_dot, hua, hun, mul_div_mul_left _ _ hV.ne', mul_div_mul_left _ _ hk.ne', ← Real.tan_eq_sin_div_cos]
    exact Real.arctan_tan a1 a2
  · obtain ⟨s, -, h⟩ := hX _ (hmem i)
    exact ⟨h.claL, h.claR, h.sp.1, h.sp.2, h.flap⟩

namespace StraightFlow
variable {g : Grid} {cg : V3} {d : AeroDict (Fin g.data.length)} {V r α : ℝ} {w u : V3} {x z : ℝ}

theorem solved (h : StraightFlow g cg d V r α w u x z) (hd : d.truthy = true) (hV : 0 < V) (st : LLState (Fin g.data.length))
    (c : Option CtrlDict) : ∃ γ, (llSolve (g.geom cg) st "linear" (some d) c).1 =
        .ok (solOf cg (g.geom cg).S ⟨fun _ => w, u, fun _ => r⟩ (processCtrl (g.geom cg) st c).ctrl γ) ∧
      (aMat (g.geom cg).S ⟨fun _ => w, u, fun _ => r⟩).mulVec γ =
        bVec (g.geom cg).S ⟨fun _ => w, u, fun _ => r⟩ (processCtrl (g.geom cg) st c).ctrl := by
  obtain ⟨γ, h1, h2⟩ := h.line.solve (F := ⟨fun _ => w, u, fun _ => r⟩) rfl hV (fun _ => h.wind) cg
    (processCtrl (g.geom cg) st c).ctrl
  refine ⟨γ, ?_, h2⟩
  rw [llSolve_aero _ _ _ _ hd, h.air]
  simp only [kern]
  rw [show (g.geom cg).cg = cg from rfl, h1]

theorem ne_zero (h : StraightFlow g cg d V r α w u x z) (hV : 0 < V) : w ≠ 0 := fun h0 => by
  have := congrArg nrm h.wind
  rw [nrm_smul_pos hV, h.line.unit, h0, nrm_eq_zero.2 rfl] at this
  linarith

theorem meets (h : StraightFlow g cg d V r α w u x z) (hV : 0 < V) (i : Fin g.data.length) : dot w ((g.geom cg).S i).ua ≠ 0 := by
  rw [h.wind, smul_dot]
  exact (mul_pos hV (h.line.front i)).ne'

theorem rowM (h : StraightFlow g cg d V r α w u x z) (hV : 0 < V) : RowM (aMat (g.geom cg).S ⟨fun _ => w, u, fun _ => r⟩) :=
  (h.line.rowM (F := ⟨fun _ => w, u, fun _ => r⟩) rfl fun i => h.meets hV i).1

theorem nrm_w (h : StraightFlow g cg d V r α w u x z) (hV : 0 < V) : nrm w = V := by
  rw [h.wind, nrm_smul_pos hV, h.line.unit, mul_one]

/-- width of a section of the line -/
theorem width (h : StraightFlow g cg d V r α w u x z) (i : Fin g.data.length) :
    ((g.geom cg).S i).width = (g.data.get i).r2.y - (g.data.get i).r1.y ∧ 0 < ((g.geom cg).S i).width := by
  have e : ((g.geom cg).S i).r2 - ((g.geom cg).S i).r1 = ⟨0, (g.data.get i).r2.y - (g.data.get i).r1.y, 0⟩ := by
    rw [h.line.r1, h.line.r2]; ext <;> simp
  have hp : 0 < (g.data.get i).r2.y - (g.data.get i).r1.y := sub_pos.2 ((h.line.ay i).trans (h.line.yb i))
  unfold Section.width
  rw [e, nrm_along_y, abs_of_pos hp]
  exact ⟨rfl, hp⟩

theorem diag (h : StraightFlow g cg d V r α w u x z) (hV : 0 < V) (i : Fin g.data.length) :
    nrm (cross w (dl ((g.geom cg).S i))) = V * nrm (cross u ey) * ((g.geom cg).S i).width := by
  have e : dl ((g.geom cg).S i) = ((g.data.get i).r2.y - (g.data.get i).r1.y) • ey := by
    unfold dl; rw [h.line.r1, h.line.r2]; ext <;> simp [ey]
  have hw := h.width i
  rw [e, ← hw.1, h.wind]
  have : cross (V • u) (((g.geom cg).S i).width • ey) = (V * ((g.geom cg).S i).width) • cross u ey := by
    ext <;> simp [ey] <;> ring
  rw [this, nrm_smul_pos (mul_pos hV hw.2)]
  ring

/-- the lift direction is unique -/
theorem lift_dir (h : StraightFlow g cg d V r α w u x z) (hV : 0 < V) {n : V3} (hn : LiftDirection w n) : n = liftAxis u := by
  obtain ⟨h1, k, hk, hkn⟩ := hn
  have e : cross w ey = V • cross u ey := by rw [h.wind]; ext <;> simp [ey]
  have hc := h.line.cross_ne.1
  have hk2 : k = V * nrm (cross u ey) := by
    have := congrArg nrm hkn
    rw [nrm_smul_pos hk, h1, e, nrm_smul_pos hV] at this
    linarith
  have : n = (1 / k) • cross w ey := by rw [← hkn, smul_smul, one_div_mul_cancel hk.ne', one_smul]
  rw [this, e, smul_smul, liftAxis, Verif.unit, hk2]
  congr 1
  field_simp

/-- right-hand side in terms of the two-dimensional lift -/
theorem rhs (h : StraightFlow g cg d V r α w u x z) (hV : 0 < V) {c : CtrlDict} {i : Fin g.data.length} {cl : ℝ}
    (hcl : TwoDimLift ((g.geom cg).S i) α c cl) :
    bVec (g.geom cg).S ⟨fun _ => w, u, fun _ => r⟩ (ctrlOf (g.geom cg) c) i = V ^ 2 * ((g.geom cg).S i).area * cl := by
  obtain ⟨e, he, rfl⟩ := hcl
  obtain ⟨c1, c2⟩ := controlsOf (g.geom cg) c i
  have ee : (ctrlOf (g.geom cg) c).eff i = e := by
    rcases le_or_gt |c.deflects ((g.geom cg).S i)| 11 with hh | hh
    · rw [c2.1 hh, he.1 hh]
    · rw [c2.2 hh, he.2 hh]
  have ha := h.incidence i
  unfold alphaLoc at ha
  rw [bVec_eq_rhs, liftingLineRhs, ha, ee, c1, h.nrm_w hV, rad]
  ring_nf

theorem lift (h : StraightFlow g cg d V r α w u x z) (γ : Fin g.data.length → ℝ) (i : Fin g.data.length) :
    dot (secForce (g.geom cg).S ⟨fun _ => w, u, fun _ => r⟩ γ (vInd (g.geom cg).S ⟨fun _ => w, u, fun _ => r⟩ γ) i) (liftAxis u) =
      r * V * nrm (cross u ey) * (γ i * ((g.geom cg).S i).width) := by
  rw [(h.line.force (F := ⟨fun _ => w, u, fun _ => r⟩) rfl (fun _ => h.wind) γ i).1, (h.width i).1]

theorem total (h : StraightFlow g cg d V r α w u x z) (C : Ctrl (Fin g.data.length)) (γ : Fin g.data.length → ℝ) :
    (solOf cg (g.geom cg).S ⟨fun _ => w, u, fun _ => r⟩ C γ).inviscid.FL =
      ∑ i, r * V * nrm (cross u ey) * (γ i * ((g.geom cg).S i).width) := by
  rw [(h.line.loads (F := ⟨fun _ => w, u, fun _ => r⟩) rfl (fun _ => h.wind) cg C γ).1]
  exact Finset.sum_congr rfl fun i _ => by rw [(h.width i).1]

end StraightFlow

end Verif
