import Verif.Lemmas.StraightFlow
import Verif.Thm.GridCalls

/-!
# Straight wings (C128)
-/

set_option linter.unusedSectionVars false

namespace Verif
open V3

theorem Plain.truthy {ι : Type*} {d : AeroDict ι} {V r α β : ℝ} (h : Plain d V r α β) : d.truthy = true := by
  simp [AeroDict.truthy, h.speed]

variable {nm : String} {pos : Option V3} {ops : List PlaneOp} {co : Bool} {g : Grid}

/-- **C128, solvability.** A straight wing can be solved in every plain flight condition in which the wind meets it from the front,
whatever the controls are and whatever was solved before: no exception, no division by zero. -/
theorem C128_solvable (hs : StraightWing (built nm pos ops)) (hg : mkGrid (built nm pos ops) co = .ok g) (cg : V3)
    {d : AeroDict (Fin g.data.length)} {V r α β : ℝ} (hd : Plain d V r α β) (hV : 0 < V) (hf : FromFront (built nm pos ops) α β)
    (st : LLState (Fin g.data.length)) (c : Option CtrlDict) : ∃ R, (llSolve (g.geom cg) st "linear" (some d) c).1 = .ok R := by
  obtain ⟨w, u, x, z, -, h⟩ := straight_flow (built_inv nm pos ops) hs hg cg hd hV hf
  obtain ⟨γ, h1, -⟩ := h.solved hd.truthy hV st c
  exact ⟨_, h1⟩

theorem straight_result (hs : StraightWing (built nm pos ops)) (hg : mkGrid (built nm pos ops) co = .ok g) (cg : V3)
    {d : AeroDict (Fin g.data.length)} {V r α β : ℝ} (hd : Plain d V r α β) (hV : 0 < V) (hf : FromFront (built nm pos ops) α β)
    {c : CtrlDict} (hc : c.truthy = true) {w n : V3} (hw : IsWind V α β w) (hn : LiftDirection w n) :
    ∃ u x z, StraightFlow g cg d V r α w u x z ∧ n = liftAxis u ∧ ∀ (st : LLState (Fin g.data.length)) (R : Sol (Fin g.data.length)),
      (llSolve (g.geom cg) st "linear" (some d) (some c)).1 = .ok R →
        R = solOf cg (g.geom cg).S ⟨fun _ => w, u, fun _ => r⟩ (ctrlOf (g.geom cg) c) R.gamma ∧
        (aMat (g.geom cg).S ⟨fun _ => w, u, fun _ => r⟩).mulVec R.gamma =
          bVec (g.geom cg).S ⟨fun _ => w, u, fun _ => r⟩ (ctrlOf (g.geom cg) c) := by
  obtain ⟨w', u, x, z, hw', h⟩ := straight_flow (built_inv nm pos ops) hs hg cg hd hV hf
  have hww : w = w' := by
    obtain ⟨h1, k, hk, hw⟩ := hw
    obtain ⟨h1', k', hk', hw'⟩ := isWind_of hw'
    set b : V3 := ⟨Real.cos (α * (Real.pi / 180)) * Real.cos (β * (Real.pi / 180)),
      Real.cos (α * (Real.pi / 180)) * Real.sin (β * (Real.pi / 180)), Real.sin (α * (Real.pi / 180)) * Real.cos (β * (Real.pi / 180))⟩
    have k0 : 0 ≤ k := nonneg_of_mul_nonneg_left hk hV
    have k0' : 0 ≤ k' := nonneg_of_mul_nonneg_left hk' hV
    have e : k * nrm b = k' * nrm b := by
      have e1 : nrm w = k * nrm b := by rw [hw, nrm_neg, nrm_smul, abs_of_nonneg k0]
      have e2 : nrm w' = k' * nrm b := by rw [hw', nrm_neg, nrm_smul, abs_of_nonneg k0']
      rw [← e1, ← e2, h1, h1']
    have hb : nrm b ≠ 0 := fun h0 => by
      rw [hw, nrm_neg, nrm_smul, h0, mul_zero, abs_of_pos hV] at h1
      exact hV.ne h1
    rw [hw, hw', mul_right_cancel₀ hb e]
  subst hww
  refine ⟨u, x, z, h, h.lift_dir hV hn, fun st R hR => ?_⟩
  obtain ⟨γ, h1, h2⟩ := h.solved hd.truthy hV st (some c)
  have hC : (processCtrl (g.geom cg) st (some c)).ctrl = ctrlOf (g.geom cg) c := by
    unfold processCtrl
    simp only [hc, if_true]
    rfl
  rw [hC] at h1 h2
  rw [hR] at h1
  cases h1
  exact ⟨rfl, h2⟩

/-- **C128, sign.** If no section of a straight wing would have negative lift in two-dimensional flow, none has negative circulation
or negative lift in the solution, and the lift of the whole wing is not negative. -/
theorem C128_sign (hs : StraightWing (built nm pos ops)) (hg : mkGrid (built nm pos ops) co = .ok g) (cg : V3)
    {d : AeroDict (Fin g.data.length)} {V r α β : ℝ} (hd : Plain d V r α β) (hV : 0 < V) (hr : 0 ≤ r)
    (hf : FromFront (built nm pos ops) α β) {c : CtrlDict} (hc : c.truthy = true)
    (h2 : ∀ i cl, TwoDimLift ((g.geom cg).S i) α c cl → 0 ≤ cl)
    (st : LLState (Fin g.data.length)) (R : Sol (Fin g.data.length)) (hR : (llSolve (g.geom cg) st "linear" (some d) (some c)).1 = .ok R)
    (w n : V3) (hw : IsWind V α β w) (hn : LiftDirection w n) :
    (∀ i, 0 ≤ R.gamma i ∧ 0 ≤ dot (R.force i) n) ∧ 0 ≤ R.inviscid.FL := by
  obtain ⟨u, x, z, h, rfl, hS⟩ := straight_result hs hg cg hd hV hf hc hw hn
  obtain ⟨hR', hγ⟩ := hS st R hR
  have hg0 : ∀ i, 0 ≤ R.gamma i := (h.rowM hV).nonneg fun i => by
    rw [hγ, h.rhs hV ⟨_, (controlsOf (g.geom cg) c i).2, rfl⟩]
    have := h2 i _ ⟨_, (controlsOf (g.geom cg) c i).2, rfl⟩
    have := h.line.area i
    positivity
  have hl : ∀ i, 0 ≤ r * V * nrm (cross u ey) * (R.gamma i * ((g.geom cg).S i).width) := fun i => by
    have h1 := hg0 i
    have h3 := (h.width i).2
    have h4 := h.line.cross_ne.1
    positivity
  refine ⟨fun i => ⟨hg0 i, ?_⟩, ?_⟩
  · rw [hR']; show 0 ≤ dot (secForce _ _ _ _ i) _
    rw [h.lift]; exact hl i
  · rw [hR', h.total]; exact Finset.sum_nonneg fun i _ => hl i

/-- **C128, bound.** The lift of a section of a straight wing, per unit of span, lies within any bounds (containing zero) within which
the two-dimensional lifts of all the sections lie. -/
theorem C128_bounded (hs : StraightWing (built nm pos ops)) (hg : mkGrid (built nm pos ops) co = .ok g) (cg : V3)
    {d : AeroDict (Fin g.data.length)} {V r α β : ℝ} (hd : Plain d V r α β) (hV : 0 < V) (hr : 0 < r)
    (hf : FromFront (built nm pos ops) α β) {c : CtrlDict} (hc : c.truthy = true)
    (st : LLState (Fin g.data.length)) (R : Sol (Fin g.data.length)) (hR : (llSolve (g.geom cg) st "linear" (some d) (some c)).1 = .ok R)
    (w n : V3) (hw : IsWind V α β w) (hn : LiftDirection w n) (ℓ : ℝ) (hℓ : 0 ≤ ℓ) :
    ((∀ i cl, TwoDimLift ((g.geom cg).S i) α c cl → r * V ^ 2 / 2 * ((g.geom cg).S i).area * cl ≤ ℓ * ((g.geom cg).S i).width) →
      ∀ i, dot (R.force i) n ≤ ℓ * ((g.geom cg).S i).width) ∧
    ((∀ i cl, TwoDimLift ((g.geom cg).S i) α c cl → -(ℓ * ((g.geom cg).S i).width) ≤ r * V ^ 2 / 2 * ((g.geom cg).S i).area * cl) →
      ∀ i, -(ℓ * ((g.geom cg).S i).width) ≤ dot (R.force i) n) := by
  obtain ⟨u, x, z, h, rfl, hS⟩ := straight_result hs hg cg hd hV hf hc hw hn
  obtain ⟨hR', hγ⟩ := hS st R hR
  have hc0 := h.line.cross_ne.1
  have hM : 0 ≤ ℓ / (r * V * nrm (cross u ey)) := by positivity
  have hrow := h.line.rowM (F := ⟨fun _ => w, u, fun _ => r⟩) rfl fun i => h.meets hV i
  have hforce : ∀ i, dot (R.force i) (liftAxis u) = r * V * nrm (cross u ey) * (R.gamma i * ((g.geom cg).S i).width) := fun i => by
    rw [hR']; show dot (secForce _ _ _ _ i) _ = _
    rw [h.lift]; rfl
  have hD : ∀ i, 2 * nrm (cross w (dl ((g.geom cg).S i))) * (ℓ / (r * V * nrm (cross u ey))) =
      2 * (ℓ * ((g.geom cg).S i).width) / r := fun i => by
    rw [h.diag hV]; field_simp
  have key : ∀ i, bVec (g.geom cg).S ⟨fun _ => w, u, fun _ => r⟩ (ctrlOf (g.geom cg) c) i =
      2 * (r * V ^ 2 / 2 * ((g.geom cg).S i).area * sectionLift ((g.geom cg).S i) ((α + ((g.geom cg).S i).twist) * (Real.pi / 180))
        (((g.geom cg).S i).flapEff * (ctrlOf (g.geom cg) c).eff i * (c.deflects ((g.geom cg).S i) * (Real.pi / 180)))) / r := fun i => by
    rw [h.rhs hV ⟨_, (controlsOf (g.geom cg) c i).2, rfl⟩]; field_simp
  have scale : ∀ (i : Fin g.data.length) (γ : ℝ), γ ≤ ℓ / (r * V * nrm (cross u ey)) →
      r * V * nrm (cross u ey) * (γ * ((g.geom cg).S i).width) ≤ ℓ * ((g.geom cg).S i).width := fun i γ hγ => by
    have h3 := (h.width i).2
    rw [le_div_iff₀ (by positivity)] at hγ
    nlinarith
  constructor
  · intro h2 i
    rw [hforce]
    refine scale i _ (hrow.1.le_of hM hrow.2 (fun i => ?_) i)
    rw [hγ, hD, key]
    have := h2 i _ ⟨_, (controlsOf (g.geom cg) c i).2, rfl⟩
    gcongr
  · intro h2 i
    rw [hforce]
    have := scale i _ (hrow.1.le_of (x := -R.gamma) hM hrow.2 (fun i => ?_) i)
    · simp only [Pi.neg_apply] at this; linarith
    · rw [Matrix.mulVec_neg, Pi.neg_apply, hγ, hD, key, ← neg_div]
      have := h2 i _ ⟨_, (controlsOf (g.geom cg) c i).2, rfl⟩
      gcongr
      linarith

/-- the effective deflection does not fall when the deflection rises, up to 60 degrees either way -/
theorem keepsEffect_mono {δ δ' e e' : ℝ} (h : KeepsEffect δ e) (h' : KeepsEffect δ' e') (hle : δ ≤ δ') (h1 : |δ| ≤ 60) (h2 : |δ'| ≤ 60) :
    e * δ ≤ e' * δ' := by
  have val : ∀ {x f : ℝ}, KeepsEffect x f → |x| ≤ 60 → (0 ≤ x → (x ≤ 11 ∧ f * x = x) ∨
      (11 < x ∧ f * x = (1.09589743589744 - 0.00871794871794872 * x) * x)) ∧ (x ≤ 0 → (-11 ≤ x ∧ f * x = x) ∨
      (x < -11 ∧ f * x = (1.09589743589744 + 0.00871794871794872 * x) * x)) := by
    intro x f hk hx
    constructor
    · intro h0
      rw [abs_of_nonneg h0] at *
      rcases le_or_gt x 11 with hh | hh
      · left; refine ⟨hh, ?_⟩; rw [hk.1 (by rwa [abs_of_nonneg h0]), one_mul]
      · right; refine ⟨hh, ?_⟩; rw [hk.2 (by rwa [abs_of_nonneg h0]), abs_of_nonneg h0]
    · intro h0
      rcases le_or_gt (-11) x with hh | hh
      · left; refine ⟨hh, ?_⟩; rw [hk.1 (by rw [abs_of_nonpos h0]; linarith), one_mul]
      · right; refine ⟨hh, ?_⟩; rw [hk.2 (by rw [abs_of_nonpos h0]; linarith), abs_of_nonpos h0]; ring
  obtain ⟨p1, n1⟩ := val h h1
  obtain ⟨p2, n2⟩ := val h' h2
  obtain ⟨a1, a2⟩ := abs_le.1 h1
  obtain ⟨b1, b2⟩ := abs_le.1 h2
  rcases le_total 0 δ with h0 | h0
  · have h0' := h0.trans hle
    rcases p1 h0 with ⟨q1, q2⟩ | ⟨q1, q2⟩ <;> rcases p2 h0' with ⟨r1, r2⟩ | ⟨r1, r2⟩ <;> rw [q2, r2] <;> nlinarith
  · rcases le_total 0 δ' with h0' | h0'
    · have : e * δ ≤ 0 := by rcases n1 h0 with ⟨q1, q2⟩ | ⟨q1, q2⟩ <;> rw [q2] <;> nlinarith
      have : 0 ≤ e' * δ' := by rcases p2 h0' with ⟨q1, q2⟩ | ⟨q1, q2⟩ <;> rw [q2] <;> nlinarith
      linarith
    · rcases n1 h0 with ⟨q1, q2⟩ | ⟨q1, q2⟩ <;> rcases n2 h0' with ⟨r1, r2⟩ | ⟨r1, r2⟩ <;> rw [q2, r2] <;> nlinarith

/-- **C128, control surfaces.** If the control surface of no section of a straight wing is deflected less far down by the controls `c'` than by
`c` (up to 60 degrees either way), then no section has less lift with `c'` than with `c`, nor has the wing as a whole: a flap lowered on a
part of the wing takes lift from no other part. -/
theorem C128_surfaces (hs : StraightWing (built nm pos ops)) (hg : mkGrid (built nm pos ops) co = .ok g) (cg : V3)
    {d : AeroDict (Fin g.data.length)} {V r α β : ℝ} (hd : Plain d V r α β) (hV : 0 < V) (hr : 0 ≤ r)
    (hf : FromFront (built nm pos ops) α β) {c c' : CtrlDict} (hc : c.truthy = true) (hc' : c'.truthy = true)
    (hle : ∀ i, c.deflects ((g.geom cg).S i) ≤ c'.deflects ((g.geom cg).S i))
    (h60 : ∀ i, |c.deflects ((g.geom cg).S i)| ≤ 60 ∧ |c'.deflects ((g.geom cg).S i)| ≤ 60)
    (st st' : LLState (Fin g.data.length)) (R R' : Sol (Fin g.data.length))
    (hR : (llSolve (g.geom cg) st "linear" (some d) (some c)).1 = .ok R)
    (hR' : (llSolve (g.geom cg) st' "linear" (some d) (some c')).1 = .ok R')
    (w n : V3) (hw : IsWind V α β w) (hn : LiftDirection w n) :
    (∀ i, R.gamma i ≤ R'.gamma i ∧ dot (R.force i) n ≤ dot (R'.force i) n) ∧ R.inviscid.FL ≤ R'.inviscid.FL := by
  obtain ⟨u, x, z, h, rfl, hS⟩ := straight_result hs hg cg hd hV hf hc hw hn
  obtain ⟨hR1, hγ⟩ := hS st R hR
  obtain ⟨u', x', z', h', hu', hS'⟩ := straight_result hs hg cg hd hV hf hc' hw hn
  have huu : u' = u := by
    have e : V • u' = V • u := h'.wind.symm.trans h.wind
    have := congrArg (fun v => (1 / V) • v) e
    simp only [smul_smul, one_div_mul_cancel hV.ne', one_smul] at this
    exact this
  subst huu
  obtain ⟨hR2, hγ'⟩ := hS' st' R' hR'
  have hmono : ∀ i, R.gamma i ≤ R'.gamma i := (h.rowM hV).mono fun i => by
    rw [hγ, hγ', h.rhs hV ⟨_, (controlsOf (g.geom cg) c i).2, rfl⟩, h.rhs hV ⟨_, (controlsOf (g.geom cg) c' i).2, rfl⟩]
    have ha := h.line.area i
    obtain ⟨a1, a2, a3, a4, a5⟩ := h.airfoil i
    have he := keepsEffect_mono (controlsOf (g.geom cg) c i).2 (controlsOf (g.geom cg) c' i).2 (hle i) (h60 i).1 (h60 i).2
    refine mul_le_mul_of_nonneg_left ?_ (by positivity)
    have hp := Real.pi_pos
    have he2 : ((g.geom cg).S i).flapEff * (ctrlOf (g.geom cg) c).eff i * (c.deflects ((g.geom cg).S i) * (Real.pi / 180)) ≤
        ((g.geom cg).S i).flapEff * (ctrlOf (g.geom cg) c').eff i * (c'.deflects ((g.geom cg).S i) * (Real.pi / 180)) := by
      have := mul_le_mul_of_nonneg_left he (mul_nonneg a5 (by positivity : 0 ≤ Real.pi / 180))
      linarith
    unfold sectionLift
    have q1 := mul_le_mul_of_nonneg_left he2 (mul_nonneg (sub_pos.2 a4).le a1)
    have q2 := mul_le_mul_of_nonneg_left he2 (mul_nonneg a3.le a2)
    linarith
  have hl : ∀ i, r * V * nrm (cross u' ey) * (R.gamma i * ((g.geom cg).S i).width) ≤
      r * V * nrm (cross u' ey) * (R'.gamma i * ((g.geom cg).S i).width) := fun i => by
    have h1 := hmono i
    have h3 := (h.width i).2
    have h4 := h.line.cross_ne.1
    gcongr
  refine ⟨fun i => ⟨hmono i, ?_⟩, ?_⟩
  · rw [hR1, hR2]
    show dot (secForce _ _ _ _ i) _ ≤ dot (secForce _ _ _ _ i) _
    rw [h.lift, h.lift]; exact hl i
  · rw [hR1, hR2, h.total, h.total]; exact Finset.sum_le_sum fun i _ => hl i

/-! ### Straight wings through the API -/

theorem tips_at_plane {p : Plane} {s : Seg} (hp : s.parent = .plane) (h0 : s.sweep = 0 ∧ s.dihedral = 0) :
    p.segPosition s .leftTip = .ok ⟨s.dpos.x + p.getPosition.x,
      (match s.side with | .left => s.dpos.y - s.span - s.yoffset | .right => s.dpos.y + s.yoffset) + p.getPosition.y,
      s.dpos.z + p.getPosition.z⟩ := by
  unfold Plane.segPosition segPos
  simp only [hp, Seg.tipOffset, h0.1, h0.2]
  cases hs : s.side <;> simp [addOff] <;> rfl

/-- **C128, which aircraft are meant.** One unswept wing without dihedral, of positive semispan and chords, attached to the fuselage with a
`yoffset` that is not negative, and with any control surface, is a straight wing. -/
theorem C128_api (name location side : String) (hside : ValidSide side) (d : WingDims) (hsw : d.sweep.getD 0 = 0)
    (hdi : d.dihedral.getD 0 = 0) (hspan : 0 < d.semispan.getD 4) (hroot : 0 < d.rootChord.getD 1)
    (htip : 0 < d.tipChord.getD (d.rootChord.getD 1)) (hy : 0 ≤ d.yoffset.getD 0) (props : CtrlSurfProps) :
    StraightWing (built nm pos [.addWing name none location side d, .controlSurface 0 props]) := by
  set p := built nm pos [.addWing name none location side d, .controlSurface 0 props] with hp
  have hseg : ∃ cs, p.segments = (if side = "both" then [Side.left, Side.right] else if side = "right" then [.right] else [.left]).map
      fun sd => { (mkSeg (sd.str ++ "_" ++ name) sd d).connectTo .plane location with cs := cs } := by
    rw [hp]
    unfold built runOps newPlane
    simp only [List.foldl, PlaneOp.run, Plane.addWing, Plane.wingCtrl]
    rcases hside with rfl | rfl | rfl <;> rcases hcs : mkCtrlSurf props with e | cs
    all_goals
      simp [mkWing, hcs, Plane.segments, Plane.wingList, dictSet, Wing.mapSegs, Wing.segments, Side.str, mkSeg, Seg.connectTo]
  obtain ⟨cs, hseg⟩ := hseg
  have hmem : ∀ s ∈ p.segments, s.parent = .plane ∧ s.sweep = 0 ∧ s.dihedral = 0 ∧ s.span = d.semispan.getD 4 ∧
      s.rootChord = d.rootChord.getD 1 ∧ s.tipChord = d.tipChord.getD (d.rootChord.getD 1) ∧ s.dpos = d.position.getD 0 ∧
      s.yoffset = d.yoffset.getD 0 ∧ s.root.cla = 6.2832 ∧ s.tip.cla = 6.2832 := by
    intro s hs
    rw [hseg] at hs
    obtain ⟨sd, -, rfl⟩ := List.mem_map.1 hs
    exact ⟨rfl, hsw, hdi, rfl, rfl, rfl, rfl, rfl, rfl, rfl⟩
  refine ⟨fun s hs => ⟨(hmem s hs).2.1, (hmem s hs).2.2.1⟩, fun s hs => ?_, fun s hs => ?_, ?_, ?_⟩
  · obtain ⟨-, -, -, e1, e2, e3, -⟩ := hmem s hs
    rw [e1, e2, e3]; exact ⟨hspan, hroot, htip⟩
  · obtain ⟨-, -, -, -, -, -, -, -, e1, e2⟩ := hmem s hs
    rw [e1, e2]; norm_num
  · refine ⟨(d.position.getD 0).x + p.getPosition.x, (d.position.getD 0).z + p.getPosition.z, fun s hs => ?_⟩
    obtain ⟨h1, h2, h3, -, -, -, e, -⟩ := hmem s hs
    rw [tips_at_plane h1 ⟨h2, h3⟩, e]
    exact ⟨_, rfl⟩
  · rw [hseg]
    split
    · refine .cons (fun t ht a b ha hb => ?_) (.cons (by simp) .nil)
      obtain rfl := List.mem_singleton.1 ht
      rw [tips_at_plane rfl ⟨hsw, hdi⟩] at ha hb
      cases ha; cases hb
      left
      simp only [Seg.connectTo, mkSeg]
      linarith
    · split <;> simp

/-- a tapered wing with washout and a flap, attached beside a fuselage -/
noncomputable def straightDims : WingDims := { yoffset := some (1/2), tipChord := some (1/2), washout := some 3, mountAngle := some 2 }

/-- the flap: the inner half of the span, a quarter of the chord -/
noncomputable def straightFlap : CtrlSurfProps :=
  { percentSpan := some (0, 1/2), percentChord := some (.single (1/4)), mix := some { flap := some 1 } }

/-- the calls that build it -/
noncomputable def straightOps : List PlaneOp := [.addWing "Main" none "tip" "both" straightDims, .controlSurface 0 straightFlap]

theorem straight_ops (nm : String) (pos : Option V3) : StraightWing (built nm pos straightOps) :=
  C128_api "Main" "tip" "both" (.inl rfl) straightDims rfl rfl (by simp [straightDims]) (by simp [straightDims])
    (by simp [straightDims]) (by simp [straightDims]) straightFlap

theorem straight_grid_exists (nm : String) (pos : Option V3) (co : Bool) : ∃ g, mkGrid (built nm pos straightOps) co = .ok g := by
  apply C82_grid_exists
  have key : ∀ {name parent location side d}, PlaneOp.addWing name parent location side d ∈ straightOps → d = straightDims := by
    intro name parent location side d h
    simp [straightOps] at h
    exact h.2.2.2.2
  constructor
  · intro pre name parent location side d post h hv hp
    have : PlaneOp.addWing name (some parent) location side d ∈ straightOps := by rw [h]; simp
    simp [straightOps] at this
  · intro name parent location side d h _
    rw [key h]; simp [straightDims]
  · intro name parent location side d h _
    rw [key h]; simp [straightDims]
  · intro name parent location side d h _
    rw [key h]; simp [straightDims]
  · intro id props h _
    simp [straightOps] at h
    rw [h.2]
    refine ⟨fun a b hab => ?_, fun q hq => ?_⟩
    · simp [straightFlap] at hab
      rw [← hab.1, ← hab.2]; norm_num
    · simp [straightFlap] at hq
      rw [← hq]; norm_num [PctChord.atRoot, PctChord.atTip]

/-- the segments of the wing -/
noncomputable def straightSeg (side : Side) : Seg :=
  { (mkSeg (side.str ++ "_Main") side straightDims).connectTo .plane "tip" with
    cs := { spanRoot := 0, spanTip := 1/2, chordRoot := 1/4, chordTip := 1/4, sealed := true, flap := some 1 } }

theorem straight_segments (nm : String) (pos : Option V3) :
    (built nm pos straightOps).segments = [straightSeg .left, straightSeg .right] := rfl

theorem straight_front (nm : String) (pos : Option V3) : FromFront (built nm pos straightOps) 5 10 := by
  refine ⟨by norm_num [abs_lt], fun s hs => ?_⟩
  rw [straight_segments] at hs
  have : s.mount = 2 ∧ s.washout = 3 := by
    rcases List.mem_pair.1 hs with rfl | rfl <;> exact ⟨rfl, rfl⟩
  rw [this.1, this.2]
  norm_num [abs_lt]

theorem straight_mixF {nm : String} {pos : Option V3} {co : Bool} {g : Grid} (hg : mkGrid (built nm pos straightOps) co = .ok g)
    {X : GridSec} (hX : X ∈ g.data) : X.mixA = 0 ∧ X.mixE = 0 ∧ X.mixR = 0 ∧ (X.mixF = 0 ∨ X.mixF = 1) ∧
      X.left.al0 = -0.0369 ∧ X.right.al0 = -0.0369 := by
  obtain ⟨vs, hvs, hdata, -, -⟩ := mkGrid_ok hg
  rw [hdata] at hX
  obtain ⟨X', hX', rfl⟩ := List.mem_map.1 hX
  obtain ⟨v, hv, hXv⟩ := List.mem_flatten.1 hX'
  obtain ⟨s, hsm, hsd⟩ := forall2_right hvs hv
  obtain ⟨l, r, -, -, -, -, -, -, rfl⟩ := segData_ok hsd
  obtain ⟨k, -, rfl⟩ := List.mem_map.1 hXv
  rw [straight_segments] at hsm
  have hm : s.cs.mixFor s.side = (0, 0, 0, 1) := by
    rcases List.mem_pair.1 hsm with rfl | rfl <;> rfl
  show (segSection co s l r k).mixA = 0 ∧ (segSection co s l r k).mixE = 0 ∧ (segSection co s l r k).mixR = 0 ∧
    ((segSection co s l r k).mixF = 0 ∨ (segSection co s l r k).mixF = 1) ∧
    (segSection co s l r k).left.al0 = -0.0369 ∧ (segSection co s l r k).right.al0 = -0.0369
  have ha : ((leftRight s.side s.root s.tip).1.coef).al0 = -0.0369 ∧ ((leftRight s.side s.root s.tip).2.coef).al0 = -0.0369 := by
    rcases List.mem_pair.1 hsm with rfl | rfl <;> exact ⟨rfl, rfl⟩
  have hb : (segSection co s l r k).left.al0 = -0.0369 ∧ (segSection co s l r k).right.al0 = -0.0369 := ha
  rw [hb.1, hb.2]
  unfold segSection
  simp only [hm]
  split <;> simp

/-- the hypotheses are met: this wing at 5 degrees of incidence and 10 degrees of sideslip, before and after the flap is lowered -/
example (nm : String) (pos : Option V3) (co : Bool) : ∃ g, mkGrid (built nm pos straightOps) co = .ok g ∧
    ∃ (d : AeroDict (Fin g.data.length)) (R R' : Sol (Fin g.data.length)) (w n : V3), Plain d 10 1.2 5 10 ∧
      IsWind 10 5 10 w ∧ LiftDirection w n ∧
      (llSolve (g.geom 0) (LLState.init _) "linear" (some d) (some { flap := some 0 })).1 = .ok R ∧
      (llSolve (g.geom 0) (LLState.init _) "linear" (some d) (some { flap := some 20 })).1 = .ok R' ∧
      ∀ i, dot (R.force i) n ≤ dot (R'.force i) n := by
  obtain ⟨g, hg⟩ := straight_grid_exists nm pos co
  refine ⟨g, hg, { Vmag := some 10, rho := some 1.2, alpha := some 5, beta := some 10 }, ?_⟩
  have hd : Plain (ι := Fin g.data.length) { Vmag := some 10, rho := some 1.2, alpha := some 5, beta := some 10 } 10 1.2 5 10 :=
    ⟨rfl, rfl, rfl, rfl, rfl, rfl, rfl, rfl⟩
  obtain ⟨R, hR⟩ := C128_solvable (straight_ops nm pos) hg 0 hd (by norm_num) (straight_front nm pos) (LLState.init _)
    (some { flap := some 0 })
  obtain ⟨R', hR'⟩ := C128_solvable (straight_ops nm pos) hg 0 hd (by norm_num) (straight_front nm pos) (LLState.init _)
    (some { flap := some 20 })
  obtain ⟨w, u, x, z, hw, hF⟩ := straight_flow (built_inv nm pos straightOps) (straight_ops nm pos) hg 0 hd (by norm_num)
    (straight_front nm pos)
  have hn : LiftDirection w (liftAxis u) := by
    have hc := hF.line.cross_ne.1
    refine ⟨nrm_unit hc.ne', 10 * nrm (cross u ey), by positivity, ?_⟩
    rw [liftAxis, Verif.unit, smul_smul, hF.wind]
    rw [show 10 * nrm (cross u ey) * (1 / nrm (cross u ey)) = 10 by field_simp]
    ext <;> simp [ey]
  refine ⟨R, R', w, liftAxis u, hd, isWind_of hw, hn, hR, hR', fun i => ?_⟩
  refine ((C128_surfaces (straight_ops nm pos) hg 0 hd (by norm_num) (by norm_num) (straight_front nm pos) rfl rfl ?_ ?_ _ _ R R' hR hR' w _
    (isWind_of hw) hn).1 i).2
  all_goals
    intro i
    have hf : ((g.geom 0).S i).mixF = 0 ∨ ((g.geom 0).S i).mixF = 1 := by
      exact (straight_mixF hg (List.get_mem g.data i)).2.2.2.1
    simp only [CtrlDict.deflects, Option.getD_some, Option.getD_none]
    rcases hf with hf | hf <;> rw [hf] <;> norm_num

/-- the hypothesis of `C128_sign` is met at 5 degrees of incidence with the flap lowered, and then the lift is not negative -/
example (nm : String) (pos : Option V3) (co : Bool) : ∃ g, mkGrid (built nm pos straightOps) co = .ok g ∧
    ∀ (i : Fin g.data.length) cl, TwoDimLift ((g.geom 0).S i) 5 { flap := some 20 } cl → 0 ≤ cl := by
  obtain ⟨g, hg⟩ := straight_grid_exists nm pos co
  refine ⟨g, hg, fun i cl hcl => ?_⟩
  obtain ⟨e, he, rfl⟩ := hcl
  obtain ⟨x, z, hX, -⟩ := straight_grid (built_inv nm pos straightOps) (straight_ops nm pos) hg
  have hm := List.get_mem g.data i
  obtain ⟨s, hsm, h⟩ := hX _ hm
  obtain ⟨m1, m2, m3, m4, m5, m6⟩ := straight_mixF hg hm
  rw [straight_segments] at hsm
  have hmw : s.mount = 2 ∧ s.washout = 3 := by
    rcases List.mem_pair.1 hsm with rfl | rfl <;> exact ⟨rfl, rfl⟩
  obtain ⟨t, t0, t1, ht⟩ := h.twist
  rw [hmw.1, hmw.2] at ht
  have hdef : 0 ≤ CtrlDict.deflects { flap := some 20 } ((g.geom 0).S i) ∧ 0 ≤ e := by
    have : CtrlDict.deflects { flap := some 20 } ((g.geom 0).S i) = 0 ∨ CtrlDict.deflects { flap := some 20 } ((g.geom 0).S i) = 20 := by
      simp only [CtrlDict.deflects, Option.getD_some, Option.getD_none, mul_zero, zero_add]
      show (g.data.get i).mixF * 20 = 0 ∨ (g.data.get i).mixF * 20 = 20
      rcases m4 with m4 | m4 <;> rw [m4] <;> norm_num
    rcases this with hh | hh <;> rw [hh] at he ⊢
    · exact ⟨le_rfl, by rw [he.1 (by norm_num)]; norm_num⟩
    · exact ⟨by norm_num, by rw [he.2 (by norm_num [abs_of_pos])]; norm_num [abs_of_pos]⟩
  have hp := Real.pi_pos
  have htw : 0 ≤ (5 + (g.data.get i).twist) * (Real.pi / 180) := by
    rw [ht]; exact mul_nonneg (by nlinarith) (by positivity)
  have hfe := mul_nonneg (mul_nonneg h.flap hdef.2) (mul_nonneg hdef.1 (by positivity : 0 ≤ Real.pi / 180))
  unfold sectionLift
  show 0 ≤ (1 - (g.data.get i).sp) * ((g.data.get i).left.cla * ((5 + (g.data.get i).twist) * (Real.pi / 180) +
      (g.data.get i).flapEff * e * (CtrlDict.deflects { flap := some 20 } ((g.geom 0).S i) * (Real.pi / 180)) - (g.data.get i).left.al0)) +
    (g.data.get i).sp * ((g.data.get i).right.cla * ((5 + (g.data.get i).twist) * (Real.pi / 180) +
      (g.data.get i).flapEff * e * (CtrlDict.deflects { flap := some 20 } ((g.geom 0).S i) * (Real.pi / 180)) - (g.data.get i).right.al0))
  rw [m5, m6]
  have h1 := h.claL
  have h2 := h.claR
  have h3 := h.sp
  have h4 : 0 ≤ 1 - (g.data.get i).sp := by linarith
  refine add_nonneg (mul_nonneg h4 (mul_nonneg h1 ?_)) (mul_nonneg h3.1.le (mul_nonneg h2 ?_)) <;>
    · have : (0 : ℝ) < 0.0369 := by norm_num
      linarith

/-- bounds as in `C128_bounded` exist for every straight wing -/
example {d : AeroDict (Fin g.data.length)} {V r α β : ℝ} {w u : V3} {x z : ℝ} (h : StraightFlow g 0 d V r α w u x z) (c : CtrlDict) :
    ∃ ℓ, 0 ≤ ℓ ∧ ∀ i cl, TwoDimLift ((g.geom 0).S i) α c cl → r * V ^ 2 / 2 * ((g.geom 0).S i).area * cl ≤ ℓ * ((g.geom 0).S i).width := by
  have hex : ∀ i : Fin g.data.length, ∃ m, 0 ≤ m ∧ ∀ cl, TwoDimLift ((g.geom 0).S i) α c cl →
      r * V ^ 2 / 2 * ((g.geom 0).S i).area * cl ≤ m * ((g.geom 0).S i).width := fun i => by
    have hw := (h.width i).2
    refine ⟨|r * V ^ 2 / 2 * ((g.geom 0).S i).area * sectionLift ((g.geom 0).S i) ((α + ((g.geom 0).S i).twist) * (Real.pi / 180))
      (((g.geom 0).S i).flapEff * (ctrlOf (g.geom 0) c).eff i * (c.deflects ((g.geom 0).S i) * (Real.pi / 180)))| / ((g.geom 0).S i).width,
      by positivity, fun cl hcl => ?_⟩
    obtain ⟨e, he, rfl⟩ := hcl
    have hc2 := (controlsOf (g.geom 0) c i).2
    have ee : e = (ctrlOf (g.geom 0) c).eff i := by
      rcases le_or_gt |c.deflects ((g.geom 0).S i)| 11 with hh | hh
      · rw [hc2.1 hh, he.1 hh]
      · rw [hc2.2 hh, he.2 hh]
    rw [div_mul_cancel₀ _ hw.ne', ee]
    exact le_abs_self _
  choose m hm using hex
  refine ⟨∑ i, m i, Finset.sum_nonneg fun i _ => (hm i).1, fun i cl hcl => ((hm i).2 cl hcl).trans ?_⟩
  exact mul_le_mul_of_nonneg_right (Finset.single_le_sum (f := m) (fun j _ => (hm j).1) (Finset.mem_univ i)) (h.width i).2.le

end Verif
