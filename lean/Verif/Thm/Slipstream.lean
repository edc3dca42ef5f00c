import Verif.Examples.Prop
import Verif.Thm.PropState

/-!
# Slipstream of propellers (C68, C69, C88)
-/

namespace Verif
open V3 Act

variable {ι : Type} {simps : List ℝ → List ℝ → ℝ} {fuel : ℕ}

/-! ### C68 -/

/-- **C68.** A point that is not downstream of the propeller disc, or farther than half a diameter from every point of the axis,
gets no velocity from the propeller. -/
theorem C68_outside (M : PropM ι) (V n : ℝ) (c : Coefs) (p : V3)
    (h : 0 ≤ dot (p - M.geom.position) M.fwd ∨ ∀ t : ℝ, M.d / 2 < nrm (p - (M.geom.position + t • M.fwd))) :
    propVel M V n c p = .ok 0 := by
  unfold propVel
  rw [if_neg]
  rintro ⟨h1, h2⟩
  rcases h with h | h
  · exact absurd h2 (not_lt.2 h)
  · have := h (streamT M p)
    unfold axisDist offAxis at h1
    rw [abs_of_nonneg (nrm_nonneg _)] at h1
    exact absurd h1 (not_le.2 this)

theorem offAxis_dot_fwd (M : PropM ι) (p : V3) : dot (offAxis M p) M.fwd = 0 := by
  have h : dot M.fwd M.fwd = 1 := dot_fwd _
  unfold offAxis streamT
  simp only [dot, add_x, add_y, add_z, sub_x, sub_y, sub_z, smul_x, smul_y, smul_z] at h ⊢
  linear_combination (-(M.fwd.x * (p.x - M.geom.position.x) + M.fwd.y * (p.y - M.geom.position.y) + M.fwd.z * (p.z - M.geom.position.z))) * h

theorem propVel_inside (M : PropM ι) (V n : ℝ) (c : Coefs) {p : V3} (h : InStream M p) :
    (propVel M V n c p = .error .nonfinite ∧ (¬ StoneFinite M V n c (-streamT M p) ∨ nrm (tangentAt M p) = 0)) ∨
    (StoneFinite M V n c (-streamT M p) ∧ nrm (tangentAt M p) ≠ 0 ∧ propVel M V n c p =
      .ok ((npInterp M.nodes (rPrime M V n c (-streamT M p)) (vtPrime M V n c (-streamT M p)) (axisDist M p) * M.rot /
        nrm (tangentAt M p)) • tangentAt M p +
      npInterp M.nodes (rPrime M V n c (-streamT M p)) (vxPrime M n c (-streamT M p)) (axisDist M p) • (-M.fwd))) := by
  unfold propVel
  rw [if_pos h]
  simp only
  by_cases h1 : StoneFinite M V n c (-streamT M p)
  · rw [if_neg (not_not.2 h1)]
    by_cases h2 : nrm (tangentAt M p) = 0
    · rw [if_pos h2]
      exact .inl ⟨rfl, .inr h2⟩
    · rw [if_neg h2]
      exact .inr ⟨h1, h2, rfl⟩
  · rw [if_pos h1]
    exact .inl ⟨rfl, .inl h1⟩

theorem propVel_outside (M : PropM ι) (V n : ℝ) (c : Coefs) {p : V3} (h : ¬ InStream M p) : propVel M V n c p = .ok 0 := by
  unfold propVel; rw [if_neg h]

/-- **C68, inside.** The velocity a propeller induces at any point has no radial component; its axial component is the interpolated
axial velocity, directed backwards. -/
theorem C68_inside {M : PropM ι} {V n : ℝ} {c : Coefs} {p v : V3} (h : propVel M V n c p = .ok v) :
    dot v (offAxis M p) = 0 ∧
    (InStream M p → dot v M.fwd =
      -npInterp M.nodes (rPrime M V n c (-streamT M p)) (vxPrime M n c (-streamT M p)) (axisDist M p)) := by
  have hf : dot M.fwd M.fwd = 1 := dot_fwd _
  have ho := offAxis_dot_fwd M p
  by_cases h1 : InStream M p
  · rcases propVel_inside M V n c h1 with ⟨h2, -⟩ | ⟨-, -, h2⟩
    · rw [h2] at h; cases h
    rw [h2] at h
    simp only [Except.ok.injEq] at h
    rw [← h]
    have t1 : dot (tangentAt M p) (offAxis M p) = 0 := by unfold tangentAt; simp [dot]; ring
    have t2 : dot (tangentAt M p) M.fwd = 0 := by unfold tangentAt; simp [dot]; ring
    constructor
    · rw [add_dot, smul_dot, smul_dot, t1, neg_dot, dot_comm M.fwd, ho]; ring
    · intro _
      rw [add_dot, smul_dot, smul_dot, t2, neg_dot, hf]; ring
  · rw [propVel_outside M V n c h1] at h
    simp only [Except.ok.injEq] at h
    rw [← h]
    exact ⟨by simp [dot], fun h => absurd h h1⟩

theorem propVel_error {M : PropM ι} {V n : ℝ} {c : Coefs} {p : V3} {e : PyErr} (h : propVel M V n c p = .error e) :
    e = .nonfinite := by
  by_cases h1 : InStream M p
  · rcases propVel_inside M V n c h1 with ⟨h2, -⟩ | ⟨-, -, h2⟩
    · rw [h2] at h; cases h; rfl
    · rw [h2] at h; cases h
  · rw [propVel_outside M V n c h1] at h; cases h

/-- the velocity at a point is the freestream plus the sum of the contributions, or undefined if one of them is -/
theorem pointVel_ok {fl : PFlow} {p v : V3} {l : List (PropM ι × PropOut)} :
    pointVel fl p l = .ok v ↔
      ∃ vs, List.Forall₂ (fun Mo w => propVel Mo.1 fl.V Mo.2.n Mo.2.c p = .ok w) l vs ∧ v = fl.V • fl.u + vsum vs := by
  induction l generalizing v with
  | nil =>
    constructor
    · intro h
      simp only [pointVel, Except.ok.injEq] at h
      exact ⟨[], .nil, by rw [← h]; simp [vsum]⟩
    · rintro ⟨vs, h, rfl⟩
      cases h
      simp [pointVel, vsum]
  | cons Mo t ih =>
    obtain ⟨M, o⟩ := Mo
    unfold pointVel
    simp only [bind, Except.bind]
    constructor
    · intro h
      split at h
      · cases h
      · rename_i w hw
        split at h
        · cases h
        · rename_i w' hw'
          simp only [pure, Except.pure, Except.ok.injEq] at h
          obtain ⟨vs, h1, h2⟩ := ih.1 hw'
          refine ⟨w :: vs, .cons hw h1, ?_⟩
          rw [← h, h2]
          simp only [vsum, List.foldr_cons]
          rw [add_assoc, add_comm w]
    · rintro ⟨vs, h, rfl⟩
      rcases h with _ | ⟨h1, h2⟩
      rename_i w vs
      rw [show propVel M fl.V o.n o.c p = .ok w from h1]
      simp only
      rw [ih.2 ⟨vs, h2, rfl⟩]
      simp only [pure, Except.pure, Except.ok.injEq, vsum, List.foldr_cons]
      rw [add_assoc, add_comm w]

theorem pointVel_error {fl : PFlow} {p : V3} {e : PyErr} {l : List (PropM ι × PropOut)} (h : pointVel fl p l = .error e) :
    e = .nonfinite := by
  induction l with
  | nil => simp [pointVel] at h
  | cons Mo t ih =>
    obtain ⟨M, o⟩ := Mo
    unfold pointVel at h
    simp only [bind, Except.bind] at h
    split at h
    · rename_i e' he
      simp only [Except.error.injEq] at h
      rw [← h]
      exact propVel_error he
    · split at h
      · rename_i e' he
        simp only [Except.error.injEq] at h
        rw [← h] at ih ⊢
        exact ih he
      · simp [pure, Except.pure] at h

theorem vsum_perm {l l' : List V3} (h : l.Perm l') : vsum l = vsum l' :=
  h.foldr_eq (lcomm := ⟨fun a b c => by rw [← add_assoc, add_comm a, add_assoc]⟩) 0

/-- **C68, order.** The velocity at a point does not depend on the order of the propellers (nor does the failure, if it is
undefined). -/
theorem C68_order (fl : PFlow) (p : V3) {l l' : List (PropM ι × PropOut)} (h : l.Perm l') :
    pointVel fl p l = pointVel fl p l' := by
  have key : ∀ {l l' : List (PropM ι × PropOut)} {v : V3}, l.Perm l' → pointVel fl p l = .ok v → pointVel fl p l' = .ok v := by
    intro l l' v h hv
    obtain ⟨vs, h1, rfl⟩ := pointVel_ok.1 hv
    obtain ⟨vs', h2, h3⟩ : ∃ vs', List.Forall₂ (fun Mo w => propVel Mo.1 fl.V Mo.2.n Mo.2.c p = .ok w) l' vs' ∧ vs.Perm vs' := by
      clear hv
      induction h generalizing vs with
      | nil => cases h1; exact ⟨[], .nil, .nil⟩
      | cons x _ ih =>
        rcases h1 with _ | ⟨a, b⟩
        obtain ⟨ws, w1, w2⟩ := ih _ b
        exact ⟨_, .cons a w1, w2.cons _⟩
      | swap x y t =>
        rcases h1 with _ | ⟨a, _ | ⟨b, c⟩⟩
        exact ⟨_, .cons b (.cons a c), .swap _ _ _⟩
      | trans _ _ i1 i2 =>
        obtain ⟨ws, w1, w2⟩ := i1 _ h1
        obtain ⟨ws', w3, w4⟩ := i2 _ w1
        exact ⟨ws', w3, w2.trans w4⟩
    rw [vsum_perm h3]
    exact pointVel_ok.2 ⟨vs', h2, rfl⟩
  rcases hv : pointVel fl p l with e | v
  · rcases hv' : pointVel fl p l' with e' | v'
    · rw [pointVel_error hv, pointVel_error hv']
    · rw [key h.symm hv'] at hv
      cases hv
  · exact (key h hv).symm

/-- **C68, the field.** If the analysis of all propellers returns a velocity field, each entry is the density and the freestream velocity plus
the sum of the velocities the propellers induce at that point; each of them is zero at points outside its slipstream
(`C68_outside`). -/
theorem C68_field {pts : ι → V3} {aero : Option (AeroDict ι)} {ps : PropDict} {sls sls' : List (PropSlot ι)} {tot : PropTotals}
    {field : ι → ℝ × V3} (h : propsSolve simps fuel (some pts) aero ps sls = (.ok (tot, some field), sls')) :
    ∃ fl outs, propFlow aero = .ok fl ∧ propsForces simps fuel aero ps sls = (.ok (tot, outs), sls') ∧
      ∀ i, ∃ vs, (field i).1 = fl.rho ∧ (field i).2 = fl.V • fl.u + vsum vs ∧
        List.Forall₂ (fun Mo w => propVel Mo.1 fl.V Mo.2.n Mo.2.c (pts i) = .ok w) ((sls.map PropSlot.model).zip outs) vs := by
  unfold propsSolve at h
  obtain ⟨⟨t1, outs⟩, s1, h1, h⟩ := bind_ok.1 h
  simp only at h
  rcases hfl : propFlow aero with e | fl
  · rw [hfl, lift_error_bind] at h; cases h
  rw [hfl, lift_ok_bind, get_bind] at h
  split_ifs at h with hv
  · simp only [pure_run, Prod.mk.injEq, Except.ok.injEq, Option.some.injEq] at h
    obtain ⟨⟨rfl, rfl⟩, rfl⟩ := h
    obtain ⟨d, u, acc, -, -, hl, -⟩ := propsForces_ok h1
    have hmod := (propsLoop_ok hl).2.2.2.2.1
    refine ⟨fl, outs, rfl, h1, fun i => ?_⟩
    have hvi := hv i
    rw [hmod] at hvi
    rcases hp : pointVel fl (pts i) ((sls.map PropSlot.model).zip outs) with e | v
    · rw [hp] at hvi; simp [Except.toBool] at hvi
    · obtain ⟨vs, w1, w2⟩ := pointVel_ok.1 hp
      refine ⟨vs, rfl, ?_, w1⟩
      simp only [hmod, hp, Except.toOption, Option.getD_some]
      exact w2
  · simp at h

/-- **C88 fails.** A point on the axis behind a propeller has no defined velocity (the unit tangent is 0/0), so an analysis of a plane with such a
control point does not give a finite field. -/
theorem C88_refuted {M : PropM ι} (V n : ℝ) (c : Coefs) {t : ℝ} (ht : t < 0) (hd : 0 ≤ M.d) :
    propVel M V n c (M.geom.position + t • M.fwd) = .error .nonfinite := by
  have hf : dot M.fwd M.fwd = 1 := dot_fwd _
  have h1 : streamT M (M.geom.position + t • M.fwd) = t := by
    unfold streamT
    simp only [dot, add_x, add_y, add_z, sub_x, sub_y, sub_z, smul_x, smul_y, smul_z] at hf ⊢
    linear_combination t * hf
  have h2 : offAxis M (M.geom.position + t • M.fwd) = 0 := by
    unfold offAxis; rw [h1, sub_self]
  have h3 : nrm (0 : V3) = 0 := by simp [nrm, dot]
  have hin : InStream M (M.geom.position + t • M.fwd) :=
    ⟨by unfold axisDist; rw [h2, h3, abs_zero]; positivity, by rw [h1]; exact ht⟩
  rcases propVel_inside M V n c hin with ⟨h, -⟩ | ⟨-, h, -⟩
  · exact h
  · exfalso
    apply h
    unfold tangentAt
    rw [h2]
    simp

/-! ### C69 -/

theorem kd_bounds (M : PropM ι) (hd : M.d ≠ 0) {s : ℝ} (hs : 0 ≤ s) : 1 ≤ stoneKd M s ∧ stoneKd M s < 2 := by
  unfold stoneKd
  have hR : 0 < M.d / 2 * (M.d / 2) := mul_self_pos.2 (div_ne_zero hd two_ne_zero)
  have hpos : 0 < Real.sqrt (s * s + M.d / 2 * (M.d / 2)) := Real.sqrt_pos.2 (by positivity)
  have hlt : s < Real.sqrt (s * s + M.d / 2 * (M.d / 2)) := by
    rw [Real.lt_sqrt hs]; nlinarith
  refine ⟨by linarith [div_nonneg hs hpos.le], ?_⟩
  have := (div_lt_one hpos).2 hlt
  linarith

/-- the radii along the blade increase -/
theorem radii_increase {table : String → ℝ → ℝ} {q : PropGeom} {cg : V3} {units : Option String}
    {pts : Option (ι → V3)} {M : PropM ι} (hM : mkPropM table q cg units pts = .ok M) (hd : 0 < q.diameter)
    (hh : 0 < q.hubDiameter) (hh' : q.hubDiameter < 0.999 * q.diameter) :
    ∀ i, i < q.nodes → (M.stn i).r = q.hubDiameter / 2 + i * ((0.999 * q.diameter - q.hubDiameter) / 2 / ((q.nodes : ℝ) - 1)) ∧
      0 < (M.stn i).r ∧ (i + 1 < q.nodes → (M.stn i).r < (M.stn (i + 1)).r) := by
  obtain ⟨-, hn, hg, -, -, -, -, af, -, hst⟩ := mkPropM_ok hM
  have hr : ∀ i, i < q.nodes → (M.stn i).r = q.hubDiameter / 2 + i * ((0.999 * q.diameter - q.hubDiameter) / 2 / ((q.nodes : ℝ) - 1)) := by
    intro i hi
    obtain ⟨b, c, -, -, h3⟩ := hst i hi
    unfold mkStn at h3
    simp only at h3
    split_ifs at h3
    simp only [Option.some.injEq] at h3
    rw [← h3]
    simp only [zetaAt]
    field_simp
    ring
  intro i hi
  have hstep : 0 ≤ (0.999 * q.diameter - q.hubDiameter) / 2 / ((q.nodes : ℝ) - 1) := by
    have : (1 : ℝ) ≤ q.nodes := by exact_mod_cast Nat.one_le_iff_ne_zero.2 hn
    exact div_nonneg (by linarith) (by linarith)
  refine ⟨hr i hi, ?_, fun hi' => ?_⟩
  · rw [hr i hi]
    have : (0 : ℝ) ≤ i := Nat.cast_nonneg i
    positivity
  · rw [hr i hi, hr (i + 1) hi']
    have h2 : (1 : ℝ) < q.nodes := by exact_mod_cast (by omega : 1 < q.nodes)
    have : 0 < (0.999 * q.diameter - q.hubDiameter) / 2 / ((q.nodes : ℝ) - 1) := div_pos (by linarith) (by linarith)
    push_cast
    linarith

/-- **C69.** For a propeller with a hub smaller than its tip, positive airspeed and non-negative axial induced velocities
`w i` at the nodes, at every distance `s ≥ 0` downstream: the acceleration factor `kd` is between 1 and 2; the radii `r' i` of the stream
tubes are positive, strictly increasing and at most the blade radii; and the tube between two neighbouring nodes
carries the same volume flow as at the disc, where its mean axial velocity is `V + (w i + w (i+1))/2`, downstream `V + kd (w i + w (i+1))/2`. -/
theorem C69_contraction {table : String → ℝ → ℝ} {q : PropGeom} {cg : V3} {units : Option String}
    {pts : Option (ι → V3)} {M : PropM ι} (hM : mkPropM table q cg units pts = .ok M) (hd : 0 < q.diameter)
    (hh : 0 < q.hubDiameter) (hh' : q.hubDiameter < 0.999 * q.diameter) {V n : ℝ} (hV : 0 < V) (c : Coefs)
    (hw : ∀ i, i < q.nodes → 0 ≤ vxiAt M n c i) {s : ℝ} (hs : 0 ≤ s) :
    1 ≤ stoneKd M s ∧ stoneKd M s < 2 ∧
    (∀ i, i < q.nodes → 0 < rPrime M V n c s i ∧ rPrime M V n c s i ≤ (M.stn i).r) ∧
    (∀ i, i + 1 < q.nodes → rPrime M V n c s i < rPrime M V n c s (i + 1) ∧
      Real.pi * (rPrime M V n c s (i + 1) ^ 2 - rPrime M V n c s i ^ 2) *
          (V + stoneKd M s * (vxiAt M n c i + vxiAt M n c (i + 1)) / 2) =
        Real.pi * ((M.stn (i + 1)).r ^ 2 - (M.stn i).r ^ 2) * (V + (vxiAt M n c i + vxiAt M n c (i + 1)) / 2)) ∧
    StoneFinite M V n c s := by
  have hg : M.geom = q := (mkPropM_ok hM).2.2.1
  have hdM : M.d ≠ 0 := by unfold PropM.d; rw [hg]; exact hd.ne'
  have hnM : M.nodes = q.nodes := by unfold PropM.nodes; rw [hg]
  obtain ⟨k1, k2⟩ := kd_bounds M hdM hs
  have hrad := radii_increase hM hd hh hh'
  have hvx : ∀ i, i + 1 < q.nodes → 0 ≤ vx2 M n c i := by
    intro i hi
    unfold vx2
    linarith [hw i (by omega), hw (i + 1) hi]
  have hden : ∀ i, i + 1 < q.nodes → 0 < 2 * V + stoneKd M s * vx2 M n c i := by
    intro i hi
    have := mul_nonneg (by linarith : (0:ℝ) ≤ stoneKd M s) (hvx i hi)
    linarith
  have hkv : ∀ i, i + 1 < q.nodes → 0 < stoneKv M V n c s i ∧ stoneKv M V n c s i ≤ 1 := by
    intro i hi
    unfold stoneKv
    refine ⟨div_pos (by linarith [hvx i hi]) (hden i hi), ?_⟩
    rw [div_le_one (hden i hi)]
    nlinarith [hvx i hi]
  have hdr : ∀ i, i + 1 < q.nodes → 0 < (M.stn (i + 1)).r * (M.stn (i + 1)).r - (M.stn i).r * (M.stn i).r := by
    intro i hi
    obtain ⟨-, h1, h2⟩ := hrad i (by omega)
    have := h2 hi
    nlinarith
  have main : ∀ i, i < q.nodes → 0 < rPrime M V n c s i ∧ rPrime M V n c s i ≤ (M.stn i).r := by
    intro i
    induction i with
    | zero => intro hi; exact ⟨(hrad 0 hi).2.1, le_refl _⟩
    | succ i ih =>
      intro hi
      obtain ⟨i1, i2⟩ := ih (by omega)
      obtain ⟨v1, v2⟩ := hkv i hi
      have hp := mul_pos (hdr i hi) v1
      have hr1 := (hrad (i + 1) hi).2.1
      unfold rPrime
      refine ⟨Real.sqrt_pos.2 (by positivity), ?_⟩
      rw [Real.sqrt_le_left hr1.le]
      have h3 : ((M.stn (i + 1)).r * (M.stn (i + 1)).r - (M.stn i).r * (M.stn i).r) * stoneKv M V n c s i ≤
          (M.stn (i + 1)).r * (M.stn (i + 1)).r - (M.stn i).r * (M.stn i).r := mul_le_of_le_one_right (hdr i hi).le v2
      nlinarith
  have sq : ∀ i, i + 1 < q.nodes → rPrime M V n c s (i + 1) ^ 2 = rPrime M V n c s i ^ 2 +
      ((M.stn (i + 1)).r * (M.stn (i + 1)).r - (M.stn i).r * (M.stn i).r) * stoneKv M V n c s i := by
    intro i hi
    have hp := mul_pos (hdr i hi) (hkv i hi).1
    rw [rPrime, Real.sq_sqrt (by nlinarith [mul_self_nonneg (rPrime M V n c s i)])]
    ring
  refine ⟨k1, k2, main, fun i hi => ⟨?_, ?_⟩, ?_, ?_⟩
  · have hp := mul_pos (hdr i hi) (hkv i hi).1
    have h1 := main i (by omega)
    have h2 := main (i + 1) hi
    have := sq i hi
    nlinarith
  · rw [sq i hi]
    have hkd : stoneKv M V n c s i * (2 * V + stoneKd M s * vx2 M n c i) = 2 * V + vx2 M n c i := by
      unfold stoneKv
      exact div_mul_cancel₀ _ (hden i hi).ne'
    unfold vx2 at hkd
    linear_combination Real.pi * ((M.stn (i + 1)).r * (M.stn (i + 1)).r - (M.stn i).r * (M.stn i).r) / 2 * hkd
  · intro i hi
    rw [hnM] at hi
    refine ⟨(hden i hi).ne', ?_⟩
    have hp := mul_pos (hdr i hi) (hkv i hi).1
    nlinarith [mul_self_nonneg (rPrime M V n c s i)]
  · intro i hi
    rw [hnM] at hi
    exact (main i hi).1.ne'

/-- **C69, at the disc.** At the disc itself (`s = 0`) the tubes have the blade radii. -/
theorem C69_disc {table : String → ℝ → ℝ} {q : PropGeom} {cg : V3} {units : Option String}
    {pts : Option (ι → V3)} {M : PropM ι} (hM : mkPropM table q cg units pts = .ok M) (hd : 0 < q.diameter)
    (hh : 0 < q.hubDiameter) (hh' : q.hubDiameter < 0.999 * q.diameter) {V n : ℝ} (hV : 0 < V) (c : Coefs)
    (hw : ∀ i, i < q.nodes → 0 ≤ vxiAt M n c i) {i : ℕ} (hi : i < q.nodes) : rPrime M V n c 0 i = (M.stn i).r := by
  have hrad := radii_increase hM hd hh hh'
  induction i with
  | zero => rfl
  | succ i ih =>
    have hk : stoneKv M V n c 0 i = 1 := by
      unfold stoneKv stoneKd vx2
      have h1 := hw i (by omega)
      have h2 := hw (i + 1) hi
      simp only [zero_div, add_zero, one_mul]
      exact div_self (by linarith)
    rw [rPrime, hk, ih (by omega)]
    rw [show (M.stn i).r * (M.stn i).r + ((M.stn (i + 1)).r * (M.stn (i + 1)).r - (M.stn i).r * (M.stn i).r) * 1 =
      (M.stn (i + 1)).r * (M.stn (i + 1)).r by ring, Real.sqrt_mul_self (hrad (i + 1) hi).2.1.le]

/-! ### The hypotheses are met -/

/-- the example propeller after its first analysis at `J = 0.5`, `V = 10`: the induced axial velocities are positive -/
theorem demo_induced : ∃ (M : PropM ℕ) (c : Coefs) (n : ℝ), mkPropM (fun _ _ => 0) demoProp 0 none none = .ok M ∧
    (0 : ℝ) < demoProp.diameter ∧ 0 < demoProp.hubDiameter ∧ demoProp.hubDiameter < 0.999 * demoProp.diameter ∧
    (∃ simps fuel st st' o, runProp simps fuel M (some { Vmag := some 10, rho := some 0.002 }) [("J", .num 0.5)] st = (.ok o, st') ∧
      o.c = c ∧ o.n = n) ∧
    ∀ i, i < 2 → 0 < vxiAt M n c i := by
  obtain ⟨M, hM, -, hd, hs, -⟩ := demo_ok (ι := ℕ) (fun _ _ => 0) 0 none none
  obtain ⟨mem, h⟩ := demo_run hM 10 0.002 (J := 0.5) (by norm_num) (by norm_num) (fun _ => 1) _ 0 _
    (fun s => set_J M 10 s (has_singleton _ _) (by norm_num) (by norm_num)) 15
  obtain ⟨o, st', r1, n1, v1, -⟩ := h (fun _ _ => 1) 0
  refine ⟨M, o.c, o.n, hM, by norm_num [demoProp], by norm_num [demoProp], by norm_num [demoProp], ⟨_, _, _, _, o, r1, rfl, rfl⟩,
    fun i hi => ?_⟩
  obtain ⟨-, -, w3, w4, -⟩ := v1 i hi
  obtain ⟨q1, -, q3, q4, -, -, -, -, -, q9, -⟩ := hs i hi
  have hpi := Real.pi_gt_d2
  norm_num at hpi q9
  have hp : 0 < Real.pi * (M.stn i).zeta := mul_pos Real.pi_pos q1
  have hx : 0 < 1 / (Real.pi * (M.stn i).zeta) := div_pos one_pos hp
  have hb0 : 0 < (M.stn i).beta := by rw [q4]; exact Real.arctan_pos.2 hx
  have hb1 : (M.stn i).beta < 1 := by
    rw [q4]
    refine (arctan_lt_self hx).trans ?_
    rw [div_lt_one hp]
    nlinarith
  have he : o.c.einf i = Real.arctan (0.5 / (Real.pi * (M.stn i).zeta)) := by
    rw [w3]; exact arctan2_pos _ hp
  have he0 : 0 < o.c.einf i := by rw [he]; exact Real.arctan_pos.2 (div_pos (by norm_num) hp)
  have he1 : o.c.einf i < (M.stn i).beta := by
    rw [he, q4]
    exact Real.arctan_strictMono (div_lt_div_of_pos_right (by norm_num) hp)
  unfold vxiAt viAt
  rw [w4, sub_add_cancel, n1, q3, hd]
  have c1 : 0 < Real.cos (o.c.einf i) := Real.cos_pos_of_mem_Ioo ⟨by linarith, by linarith⟩
  have c2 : 0 < Real.cos (M.stn i).beta := Real.cos_pos_of_mem_Ioo ⟨by linarith, by linarith⟩
  have s1 : 0 < Real.sin ((M.stn i).beta - o.c.einf i) := Real.sin_pos_of_pos_of_lt_pi (by linarith) (by linarith)
  have := Real.pi_pos
  positivity

/-- a point upstream, one off to the side, and one inside the slipstream of the example propeller -/
example : ∃ M : PropM ℕ, mkPropM (fun _ _ => 0) demoProp 0 none none = .ok M ∧
    0 ≤ dot (⟨2, 0, 0⟩ - M.geom.position) M.fwd ∧
    (∀ t : ℝ, M.d / 2 < nrm ((⟨-1, 3, 0⟩ : V3) - (M.geom.position + t • M.fwd))) ∧
    InStream M ⟨-3, 0.5, 0⟩ := by
  obtain ⟨M, hM, -, hd, -⟩ := demo_ok (ι := ℕ) (fun _ _ => 0) 0 none none
  have hg : M.geom = demoProp := (mkPropM_ok hM).2.2.1
  have hp : M.geom.position = ⟨-1, 0, 0⟩ := by rw [hg]; rfl
  refine ⟨M, hM, ?_, fun t => ?_, ?_, ?_⟩
  · rw [demo_fwd hg, hp]; norm_num [dot]
  · rw [demo_fwd hg, hp, hd]
    unfold nrm
    rw [Real.lt_sqrt (by norm_num)]
    simp only [dot, sub_x, sub_y, sub_z, add_x, add_y, add_z, smul_x, smul_y, smul_z]
    nlinarith [mul_self_nonneg (-1 - (-1 + t * 1))]
  · unfold axisDist offAxis streamT
    rw [demo_fwd hg, hp, hd]
    rw [abs_of_nonneg (nrm_nonneg _)]
    unfold nrm
    rw [Real.sqrt_le_left (by norm_num)]
    norm_num [dot]
  · unfold streamT
    rw [demo_fwd hg, hp]; norm_num [dot]

end Verif
