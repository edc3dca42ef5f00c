import Verif.Model.Propwash
import Verif.Thm.SlipVelocity

/-! # C124: the wash of a propeller at arbitrary points -/

namespace Verif
open V3 Act

variable {ι : Type}

/-- the stream tubes around the thin core -/
theorem wash_contraction {table : String → ℝ → ℝ} {q : PropGeom} {cg : V3} {units : Option String}
    {pts : Option (ι → V3)} {M : PropM ι} (hM : mkPropM table q cg units pts = .ok M) (hd : 0 < q.diameter)
    (hh : 0 < q.hubDiameter) (hh' : q.hubDiameter < 0.999 * q.diameter) {V n : ℝ} (hV : 0 < V) (c : Coefs)
    (hw : ∀ i, i < q.nodes → 0 ≤ vxiAt M n c i) {s : ℝ} (hs : 0 ≤ s) :
    1 ≤ stoneKd M s ∧ stoneKd M s < 2 ∧
    (∀ i, i < q.nodes → 0 < washR M V n c s i ∧ washR M V n c s i ≤ (M.stn i).r) ∧
    (∀ i, i + 1 < q.nodes → washR M V n c s i < washR M V n c s (i + 1) ∧
      Real.pi * (washR M V n c s (i + 1) ^ 2 - washR M V n c s i ^ 2) *
          (V + stoneKd M s * (vxiAt M n c i + vxiAt M n c (i + 1)) / 2) =
        Real.pi * ((M.stn (i + 1)).r ^ 2 - (M.stn i).r ^ 2) * (V + (vxiAt M n c i + vxiAt M n c (i + 1)) / 2)) ∧
    WashFinite M V n c s := by
  have hg : M.geom = q := (mkPropM_ok hM).2.2.1
  have hdM : M.d ≠ 0 := by unfold PropM.d; rw [hg]; exact hd.ne'
  have hnM : M.nodes = q.nodes := by unfold PropM.nodes; rw [hg]
  obtain ⟨k1, k2⟩ := kd_bounds M hdM hs
  have hrad := radii_increase hM hd hh hh'
  have hvx : ∀ i, i + 1 < q.nodes → 0 ≤ vx2 M n c i := by
    intro i hi
    unfold vx2
    linarith [hw i (by omega), hw (i + 1) hi]
  have hden : ∀ i, i + 1 < q.nodes → 0 < 2 * V + stoneKd M s * vx2 M n c i := by
    intro i hi
    have := mul_nonneg (by linarith : (0:ℝ) ≤ stoneKd M s) (hvx i hi)
    linarith
  have hkv : ∀ i, i + 1 < q.nodes → 0 < stoneKv M V n c s i ∧ stoneKv M V n c s i ≤ 1 := by
    intro i hi
    unfold stoneKv
    refine ⟨div_pos (by linarith [hvx i hi]) (hden i hi), ?_⟩
    rw [div_le_one (hden i hi)]
    nlinarith [hvx i hi]
  have hdr : ∀ i, i + 1 < q.nodes → 0 < (M.stn (i + 1)).r * (M.stn (i + 1)).r - (M.stn i).r * (M.stn i).r := by
    intro i hi
    obtain ⟨-, h1, h2⟩ := hrad i (by omega)
    have := h2 hi
    nlinarith
  have main : ∀ i, i < q.nodes → 0 < washR M V n c s i ∧ washR M V n c s i ≤ (M.stn i).r := by
    intro i
    induction i with
    | zero =>
      intro hi
      have := (hrad 0 hi).2.1
      simp only [washR]
      exact ⟨by positivity, by linarith⟩
    | succ i ih =>
      intro hi
      obtain ⟨i1, i2⟩ := ih (by omega)
      obtain ⟨v1, v2⟩ := hkv i hi
      have hp := mul_pos (hdr i hi) v1
      have hr1 := (hrad (i + 1) hi).2.1
      unfold washR
      refine ⟨Real.sqrt_pos.2 (by positivity), ?_⟩
      rw [Real.sqrt_le_left hr1.le]
      have h3 : ((M.stn (i + 1)).r * (M.stn (i + 1)).r - (M.stn i).r * (M.stn i).r) * stoneKv M V n c s i ≤
          (M.stn (i + 1)).r * (M.stn (i + 1)).r - (M.stn i).r * (M.stn i).r := mul_le_of_le_one_right (hdr i hi).le v2
      nlinarith
  have sq : ∀ i, i + 1 < q.nodes → washR M V n c s (i + 1) ^ 2 = washR M V n c s i ^ 2 +
      ((M.stn (i + 1)).r * (M.stn (i + 1)).r - (M.stn i).r * (M.stn i).r) * stoneKv M V n c s i := by
    intro i hi
    have hp := mul_pos (hdr i hi) (hkv i hi).1
    rw [washR, Real.sq_sqrt (by nlinarith [mul_self_nonneg (washR M V n c s i)])]
    ring
  refine ⟨k1, k2, main, fun i hi => ⟨?_, ?_⟩, ?_, ?_⟩
  · have hp := mul_pos (hdr i hi) (hkv i hi).1
    have h1 := main i (by omega)
    have h2 := main (i + 1) hi
    have := sq i hi
    nlinarith
  · rw [sq i hi]
    have hkd : stoneKv M V n c s i * (2 * V + stoneKd M s * vx2 M n c i) = 2 * V + vx2 M n c i := by
      unfold stoneKv
      exact div_mul_cancel₀ _ (hden i hi).ne'
    unfold vx2 at hkd
    linear_combination Real.pi * ((M.stn (i + 1)).r * (M.stn (i + 1)).r - (M.stn i).r * (M.stn i).r) / 2 * hkd
  · intro i hi
    rw [hnM] at hi
    refine ⟨(hden i hi).ne', ?_⟩
    have hp := mul_pos (hdr i hi) (hkv i hi).1
    nlinarith [mul_self_nonneg (washR M V n c s i)]
  · intro i hi
    rw [hnM] at hi
    exact (main i hi).1.ne'

/-- **C124, the law that holds.** For a propeller with a hub smaller than its tip, positive airspeed and non-negative axial induced
velocities: a point `s` behind the disc, `rho` off the axis in the direction `e`, gets the velocity of stream tubes as in C109, but around a
core that has one hundredth of the radius of the hub. -/
theorem C124_wash_partial {table : String → ℝ → ℝ} {q : PropGeom} {cg : V3} {units : Option String}
    {pts : Option (ι → V3)} {M : PropM ι} (hM : mkPropM table q cg units pts = .ok M) (hd : 0 < q.diameter)
    (hh : 0 < q.hubDiameter) (hh' : q.hubDiameter < 0.999 * q.diameter) {V n : ℝ} (hV : 0 < V) (c : Coefs)
    (hw : ∀ i, i < q.nodes → 0 ≤ inducedAxial n (M.stn i).r (c.einf i) (c.ei i)) :
    ∃ (f : V3) (sense : ℝ), AxisOf q f ∧ SenseOf q sense ∧ ∀ (s rho : ℝ) (e : V3), 0 < s → 0 < rho → rho ≤ q.diameter / 2 →
      nrm e = 1 → dot e f = 0 →
      ∃ (r' w' v' : ℕ → ℝ) (u : V3),
        Tubes q.nodes (0.01 * (q.hubDiameter / 2)) (q.diameter / 2) V s (fun i => (M.stn i).r)
          (fun i => inducedAxial n (M.stn i).r (c.einf i) (c.ei i))
          (fun i => inducedSwirl n (M.stn i).r (c.einf i) (c.ei i)) r' w' v' ∧
        washVel M V n c (q.position - s • f + rho • e) = .ok u ∧
        (rho < r' 0 ∨ r' (q.nodes - 1) < rho → u = 0) ∧
        ∀ i, i + 1 < q.nodes → r' i ≤ rho → rho ≤ r' (i + 1) →
          ∃ w v, Between r' w' i rho w ∧ Between r' v' i rho v ∧ u = w • (-f) + (sense * v) • cross f e := by
  have hg : M.geom = q := (mkPropM_ok hM).2.2.1
  have hN : M.nodes = q.nodes := by unfold PropM.nodes; rw [hg]
  have hD : M.d = q.diameter := by unfold PropM.d; rw [hg]
  have hfw : M.fwd = propForward q := by unfold PropM.fwd; rw [hg]
  have hrt : M.rot = q.rot := by unfold PropM.rot; rw [hg]
  have hvx : ∀ i, vxiAt M n c i = inducedAxial n (M.stn i).r (c.einf i) (c.ei i) := by
    intro i; unfold vxiAt viAt inducedAxial; rw [add_comm (c.ei i)]; ring
  have hvt : ∀ i, vtiAt M n c i = inducedSwirl n (M.stn i).r (c.einf i) (c.ei i) := by
    intro i; unfold vtiAt viAt inducedSwirl; rw [add_comm (c.ei i)]; ring
  refine ⟨propForward q, q.rot, axisOf q, senseOf q, fun s rho e hs hr0 hr he hef => ?_⟩
  obtain ⟨k1, k2, hrp, htube, hfin⟩ := wash_contraction hM hd hh hh' hV c (fun i hi => by rw [hvx]; exact hw i hi) hs.le
  have hff : dot (propForward q) (propForward q) = 1 := dot_fwd q
  set p : V3 := q.position - s • propForward q + rho • e with hp
  have ht : streamT M p = -s := by
    unfold streamT
    rw [hg, hfw, hp, show q.position - s • propForward q + rho • e - q.position = (-s) • propForward q + rho • e by
      ext <;> simp <;> ring, add_dot, smul_dot, smul_dot, hff, hef]
    ring
  have ho : offAxis M p = rho • e := by
    unfold offAxis
    rw [ht, hg, hfw, hp]
    ext <;> simp <;> ring
  have ha : axisDist M p = rho := by
    unfold axisDist
    rw [ho, nrm_smul_pos hr0, he, mul_one]
  have htan : tangentAt M p = rho • cross (propForward q) e := by
    unfold tangentAt
    rw [ho, hfw, cross_smul]
  have hce : nrm (cross (propForward q) e) = 1 := by
    have := lagrange (propForward q) e
    rw [hff, nrm_sq_one he, dot_comm, dot_comm (propForward q), hef] at this
    unfold nrm
    rw [Real.sqrt_eq_one]
    rw [dot_comm]
    linarith
  have htn : nrm (tangentAt M p) = rho := by rw [htan, nrm_smul_pos hr0, hce, mul_one]
  have hin : InStream M p := by
    refine ⟨?_, ?_⟩
    · rw [ha, abs_of_pos hr0, hD]; exact hr
    · rw [ht]; linarith
  have hcore : washR M V n c s 0 = 0.01 * (q.hubDiameter / 2) := by
    have := (radii_increase hM hd hh hh' 0 (Nat.pos_of_ne_zero (mkPropM_ok hM).2.1)).1
    simp only [washR]
    rw [this]
    simp
  refine ⟨washR M V n c s, vxPrime M n c s, washVt M V n c s,
    (npInterp M.nodes (washR M V n c s) (washVt M V n c s) rho * M.rot / rho) • (rho • cross (propForward q) e) +
      npInterp M.nodes (washR M V n c s) (vxPrime M n c s) rho • (-propForward q), ⟨hcore, fun i hi => ⟨(hrp i (by omega)).1, (htube i hi).1⟩, fun i hi => ?_,
    fun i hi => ?_, fun i hi hi' => ?_, fun i hi => ?_⟩, ?_, ?_, ?_⟩
  · simp only [vxPrime]
    rw [hvx, mul_comm]
    unfold stoneKd
    rw [hD, sq, sq]
  · have := (htube i hi).2
    have hpi := Real.pi_pos
    simp only [vxPrime, ← hvx]
    have h2 : Real.pi * ((washR M V n c s (i + 1) ^ 2 - washR M V n c s i ^ 2) *
        (V + (vxiAt M n c i * stoneKd M s + vxiAt M n c (i + 1) * stoneKd M s) / 2)) =
        Real.pi * (((M.stn (i + 1)).r ^ 2 - (M.stn i).r ^ 2) * (V + (vxiAt M n c i + vxiAt M n c (i + 1)) / 2)) := by
      linear_combination this
    exact mul_left_cancel₀ hpi.ne' h2
  · have h0 := (hrp i hi').1.ne'
    simp only [washVt, ← hvt]
    rw [hN, if_pos hi]
    field_simp
  · have hj : q.nodes / 10 < q.nodes := by omega
    have h0 := (hrp _ hj).1.ne'
    have h1 := (hrp i (by omega)).1.ne'
    simp only [washVt, ← hvt]
    rw [hN, if_neg (by omega), if_pos le_rfl]
    field_simp
  · unfold washVel
    rw [if_pos hin]
    simp only
    rw [ht, neg_neg, if_neg (not_not.2 hfin), if_neg (by rw [ha]; exact hr0.ne'), ha, ho, hfw, cross_smul, cross_smul]
    congr 2
    rw [smul_smul, smul_smul, smul_smul]
    congr 1
    field_simp
  · intro h
    have : ∀ fp, npInterp M.nodes (washR M V n c s) fp rho = 0 := by
      intro fp; unfold npInterp; rw [hN, if_pos h]
    rw [this, this]
    ext <;> simp
  · intro i hi h1 h2
    have hinc : ∀ i, i + 1 < M.nodes → washR M V n c s i < washR M V n c s (i + 1) := fun i hi => (htube i (hN ▸ hi)).1
    have hpos : 0 < washR M V n c s (i + 1) - washR M V n c s i := sub_pos.2 (hinc i (hN ▸ hi))
    have hb : ∀ y, Between (washR M V n c s) y i rho (npInterp M.nodes (washR M V n c s) y rho) := by
      intro y
      rw [npInterp_between hinc (hN ▸ hi) h1 h2]
      refine ⟨(rho - washR M V n c s i) / (washR M V n c s (i + 1) - washR M V n c s i), by
        exact div_nonneg (by linarith) hpos.le, by rw [div_le_one hpos]; linarith, ?_, by ring⟩
      have := div_mul_cancel₀ (rho - washR M V n c s i) hpos.ne'
      linear_combination -this
    refine ⟨_, _, hb _, hb _, ?_⟩
    rw [hrt, smul_smul]
    have : npInterp M.nodes (washR M V n c s) (washVt M V n c s) rho * q.rot / rho * rho =
      q.rot * npInterp M.nodes (washR M V n c s) (washVt M V n c s) rho := by field_simp
    rw [this, add_comm]


/-- **C124, outside.** A point that is not behind the disc, or further than the radius of the propeller from the axis, gets no velocity. -/
theorem C124_outside (M : PropM ι) (V n : ℝ) (c : Coefs) (p f : V3) (hf : AxisOf M.geom f)
    (h : 0 ≤ dot (p - M.geom.position) f ∨ M.geom.diameter / 2 < nrm (p - M.geom.position - dot (p - M.geom.position) f • f)) :
    washVel M V n c p = .ok 0 := by
  have hf' : f = M.fwd := hf.trans (axisOf M.geom).symm
  subst hf'
  unfold washVel
  rw [if_neg]
  rintro ⟨h1, h2⟩
  rcases h with h | h
  · exact absurd h2 (not_lt.2 h)
  · refine absurd h1 (not_le.2 (h.trans_le ?_))
    unfold axisDist offAxis streamT
    rw [show p - M.geom.position - dot (p - M.geom.position) M.fwd • M.fwd =
      p - (M.geom.position + dot (p - M.geom.position) M.fwd • M.fwd) by ext <;> simp <;> ring]
    exact le_abs_self _

/-- **C124 fails**: for the example propeller after its first analysis, a point one unit behind the disc and 0.4 off the axis gets no velocity
when it belongs to a wing, but it gets a velocity when asked for on its own. -/
theorem C124_refuted : ∃ (M : PropM ℕ) (c : Coefs) (n : ℝ) (p u : V3), mkPropM (fun _ _ => 0) demoProp 0 none none = .ok M ∧
    (∃ simps fuel st st' o, runProp simps fuel M (some { Vmag := some 10, rho := some 0.002 }) [("J", .num 0.5)] st = (.ok o, st') ∧
      o.c = c ∧ o.n = n) ∧
    propVel M 10 n c p = .ok 0 ∧ washVel M 10 n c p = .ok u ∧ u ≠ 0 := by
  obtain ⟨M, c, n, hM, hd, hh, hh', hrun, hpos⟩ := demo_induced
  have hvx : ∀ i, vxiAt M n c i = inducedAxial n (M.stn i).r (c.einf i) (c.ei i) := by
    intro i; unfold vxiAt viAt inducedAxial; rw [add_comm (c.ei i)]; ring
  have hw : ∀ i, i < demoProp.nodes → 0 ≤ inducedAxial n (M.stn i).r (c.einf i) (c.ei i) := fun i hi => by
    rw [← hvx]; exact (hpos i hi).le
  obtain ⟨f, sense, hf, -, h⟩ := C109_velocity hM hd hh hh' (V := 10) (n := n) (by norm_num) c hw
  obtain ⟨f2, sense2, hf2, -, h2⟩ := C124_wash_partial hM hd hh hh' (V := 10) (n := n) (by norm_num) c hw
  have hf' : f = propForward demoProp := hf.trans (axisOf demoProp).symm
  have hf2' : f2 = propForward demoProp := hf2.trans (axisOf demoProp).symm
  subst hf'
  subst hf2'
  have e1 : nrm (⟨0, 1, 0⟩ : V3) = 1 := by simp [nrm, dot]
  have e2 : dot ⟨0, 1, 0⟩ (propForward demoProp) = 0 := by simp [dot, propForward, demoProp, rad]
  have hD : demoProp.hubDiameter = 1 ∧ demoProp.diameter = 2 ∧ demoProp.nodes = 2 := ⟨rfl, rfl, rfl⟩
  obtain ⟨d1, d2, d3⟩ := hD
  obtain ⟨r', w', v', u, hT, hu, hz, -⟩ := h 1 0.4 ⟨0, 1, 0⟩ (by norm_num) (by norm_num) (by rw [d2]; norm_num) e1 e2
  obtain ⟨r2, w2, v2, u2, hT2, hu2, -, hb2⟩ := h2 1 0.4 ⟨0, 1, 0⟩ (by norm_num) (by norm_num) (by rw [d2]; norm_num) e1 e2
  refine ⟨M, c, n, _, u2, hM, hrun, ?_, hu2, ?_⟩
  · rw [hu, hz (.inl (by rw [hT.nacelle, d1]; norm_num))]
  · have hr0 : (M.stn 0).r = 0.5 := by
      rw [(radii_increase hM hd hh hh' 0 (by norm_num [d3])).1, d1]; norm_num
    have hr1 : (M.stn 1).r = 0.999 := by
      rw [(radii_increase hM hd hh hh' 1 (by norm_num [d3])).1, d1, d2, d3]; norm_num
    have hw0 : 0 < inducedAxial n (M.stn 0).r (c.einf 0) (c.ei 0) := by rw [← hvx]; exact hpos 0 (by norm_num)
    have hw1 : 0 < inducedAxial n (M.stn 1).r (c.einf 1) (c.ei 1) := by rw [← hvx]; exact hpos 1 (by norm_num)
    set K : ℝ := 1 + 1 / Real.sqrt (1 ^ 2 + (demoProp.diameter / 2) ^ 2) with hK
    have hK1 : 1 < K ∧ K < 2 := by
      have h1 : 1 < Real.sqrt (1 ^ 2 + (demoProp.diameter / 2) ^ 2) := by
        rw [Real.lt_sqrt (by norm_num), d2]; norm_num
      rw [hK]
      refine ⟨by linarith [div_pos one_pos (one_pos.trans h1)], by linarith [(div_lt_one (one_pos.trans h1)).2 h1]⟩
    have a0 : w2 0 = K * _ := hT2.axial 0 (by norm_num [d3])
    have a1 : w2 1 = K * _ := hT2.axial 1 (by norm_num [d3])
    have hfl := hT2.flow 0 (by norm_num [d3])
    simp only [zero_add] at hfl
    rw [a0, a1, hr0, hr1] at hfl
    rw [hr0] at hw0 a0
    rw [hr1] at hw1 a1
    set A := inducedAxial n 0.5 (c.einf 0) (c.ei 0)
    set B := inducedAxial n 0.999 (c.einf 1) (c.ei 1)
    have hn0 : r2 0 = 0.005 := by rw [hT2.nacelle, d1]; norm_num
    have ho := hT2.order 0 (by norm_num [d3])
    have h04 : 0.4 ≤ r2 1 := by
      by_contra hlt
      push Not at hlt
      have h3 : r2 1 ^ 2 - r2 0 ^ 2 ≤ 0.16 := by
        have h4 : 0 < r2 1 := ho.1.trans ho.2
        nlinarith [sq_nonneg (r2 0)]
      have h5 : (r2 1 ^ 2 - r2 0 ^ 2) * (10 + (K * A + K * B) / 2) ≤ 0.16 * (10 + (K * A + K * B) / 2) := by
        refine mul_le_mul_of_nonneg_right h3 ?_
        have := mul_pos (by linarith : (0:ℝ) < K) hw0
        have := mul_pos (by linarith : (0:ℝ) < K) hw1
        linarith
      have h6 : K * A ≤ 2 * A := mul_le_mul_of_nonneg_right hK1.2.le hw0.le
      have h7 : K * B ≤ 2 * B := mul_le_mul_of_nonneg_right hK1.2.le hw1.le
      simp only [zero_add] at ho
      rw [hfl] at h5
      norm_num at h5
      linarith
    obtain ⟨w, v, ⟨t, t0, t1, -, hwt⟩, -, hU⟩ := hb2 0 (by norm_num [d3]) (by rw [hn0]; norm_num) h04
    intro hU0
    rw [hU0] at hU
    have hwpos : 0 < w := by
      rw [hwt, zero_add, a0, a1]
      have p0 := mul_pos (by linarith : (0:ℝ) < K) hw0
      have p1 := mul_pos (by linarith : (0:ℝ) < K) hw1
      rcases eq_or_lt_of_le t0 with rfl | t0
      · simpa using p0
      · have := mul_pos t0 p1
        have := mul_nonneg (sub_nonneg.2 t1) p0.le
        linarith
    have hx := congrArg (dot (propForward demoProp)) hU
    have hff : dot (propForward demoProp) (propForward demoProp) = 1 := dot_fwd demoProp
    simp only [dot, V3.cross, V3.add_x, V3.add_y, V3.add_z, V3.smul_x, V3.smul_y, V3.smul_z, V3.neg_x, V3.neg_y, V3.neg_z, V3.zero_x, V3.zero_y, V3.zero_z] at hx hff
    nlinarith

end Verif
