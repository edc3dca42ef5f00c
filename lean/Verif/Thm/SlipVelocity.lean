import Verif.Spec.Slipstream
import Verif.Thm.Slipstream
import Verif.Thm.PropElement

/-! # C109: the velocity in a slipstream -/

namespace Verif
open V3 Act

variable {ι : Type}

theorem npInterp_between {N : ℕ} {xp fp : ℕ → ℝ} (hx : ∀ i, i + 1 < N → xp i < xp (i + 1)) {i : ℕ} (hi : i + 1 < N) {x : ℝ}
    (h1 : xp i ≤ x) (h2 : x ≤ xp (i + 1)) : npInterp N xp fp x = fp i + (x - xp i) / (xp (i + 1) - xp i) * (fp (i + 1) - fp i) := by
  have mono : ∀ a b, a < b → b < N → xp a < xp b := by
    intro a b hab
    induction b with
    | zero => omega
    | succ b ih =>
      intro hb
      rcases Nat.lt_succ_iff_lt_or_eq.1 hab with h | rfl
      · exact (ih h (by omega)).trans (hx b hb)
      · exact hx a hb
  have le : ∀ a b, a ≤ b → b < N → xp a ≤ xp b := fun a b hab hb => by
    rcases hab.lt_or_eq with h | rfl
    · exact (mono a b h hb).le
    · exact le_rfl
  unfold npInterp
  rw [if_neg]
  · have hl : (List.range N).map (fun i => (xp i, fp i)) = (List.range i).map (fun i => (xp i, fp i)) ++ (xp i, fp i) ::
        (xp (i + 1), fp (i + 1)) :: ((List.range (N - (i + 2))).map fun k => (xp (i + 2 + k), fp (i + 2 + k))) := by
      obtain ⟨k, rfl⟩ : ∃ k, N = i + 2 + k := ⟨N - (i + 2), by omega⟩
      rw [List.range_add, List.map_append, List.range_succ, List.range_succ]
      simp
    have hp : ((List.range N).map (fun i => (xp i, fp i))).Pairwise (fun a b => a.1 < b.1) := by
      rw [List.pairwise_map]
      refine (List.pairwise_lt_range (n := N)).imp_of_mem fun {a b} ha hb hab => ?_
      exact mono a b hab (List.mem_range.1 hb)
    rw [hl] at hp ⊢
    exact pwl_between _ _ _ _ hp h1 h2
  · push Not
    exact ⟨(le 0 i (by omega) (by omega)).trans h1, h2.trans (le (i + 1) (N - 1) (by omega) (by omega))⟩

/-- **C88, the part that holds.** For a propeller with a hub smaller than its tip, positive airspeed and non-negative axial induced
velocities, every point that is not on the axis behind the disc gets a finite velocity. -/
theorem C88_defined_partial {table : String → ℝ → ℝ} {q : PropGeom} {cg : V3} {units : Option String}
    {pts : Option (ι → V3)} {M : PropM ι} (hM : mkPropM table q cg units pts = .ok M) (hd : 0 < q.diameter)
    (hh : 0 < q.hubDiameter) (hh' : q.hubDiameter < 0.999 * q.diameter) {V n : ℝ} (hV : 0 < V) (c : Coefs)
    (hw : ∀ i, i < q.nodes → 0 ≤ inducedAxial n (M.stn i).r (c.einf i) (c.ei i)) (p : V3) :
    (∃ u, propVel M V n c p = .ok u) ∨ ∃ (f : V3) (s : ℝ), AxisOf q f ∧ 0 < s ∧ p = q.position - s • f := by
  have hg : M.geom = q := (mkPropM_ok hM).2.2.1
  have hfw : M.fwd = propForward q := by unfold PropM.fwd; rw [hg]
  have hvx : ∀ i, vxiAt M n c i = inducedAxial n (M.stn i).r (c.einf i) (c.ei i) := by
    intro i; unfold vxiAt viAt inducedAxial; rw [add_comm (c.ei i)]; ring
  by_cases hin : InStream M p
  · have hs : 0 < -streamT M p := by have := hin.2; linarith
    obtain ⟨-, -, -, -, hfin⟩ := C69_contraction hM hd hh hh' hV c (fun i hi => by rw [hvx]; exact hw i hi) hs.le
    rcases propVel_inside M V n c hin with ⟨-, h | h⟩ | ⟨-, -, h⟩
    · exact absurd hfin h
    · right
      refine ⟨propForward q, -streamT M p, axisOf q, hs, ?_⟩
      have h0 : offAxis M p = 0 := by
        have hff : dot M.fwd M.fwd = 1 := dot_fwd _
        have ho := offAxis_dot_fwd M p
        have hl := lagrange M.fwd (offAxis M p)
        rw [hff, one_mul, dot_comm M.fwd, ho, nrm_eq_zero.1 (show nrm (cross M.fwd (offAxis M p)) = 0 from h)] at hl
        exact dot_self_eq_zero.1 (by rw [← hl]; simp [dot])
      have : p = M.geom.position + streamT M p • M.fwd := by
        unfold offAxis at h0
        exact sub_eq_zero.1 h0
      rw [hg, hfw] at this
      conv_lhs => rw [this]
      ext <;> simp
    · exact .inl ⟨_, h⟩
  · exact .inl ⟨0, propVel_outside M V n c hin⟩

/-- **C109.** For a propeller with a hub smaller than its tip, positive airspeed and non-negative axial induced velocities: at a point
`s` behind the disc and `rho` off the axis, in the direction `e`, the induced velocity is that of stream tubes: between two of
them the interpolated axial velocity backwards plus the interpolated swirl, in the sense the propeller turns; inside the
nacelle and outside the last tube there is none. -/
theorem C109_velocity {table : String → ℝ → ℝ} {q : PropGeom} {cg : V3} {units : Option String}
    {pts : Option (ι → V3)} {M : PropM ι} (hM : mkPropM table q cg units pts = .ok M) (hd : 0 < q.diameter)
    (hh : 0 < q.hubDiameter) (hh' : q.hubDiameter < 0.999 * q.diameter) {V n : ℝ} (hV : 0 < V) (c : Coefs)
    (hw : ∀ i, i < q.nodes → 0 ≤ inducedAxial n (M.stn i).r (c.einf i) (c.ei i)) :
    ∃ (f : V3) (sense : ℝ), AxisOf q f ∧ SenseOf q sense ∧ ∀ (s rho : ℝ) (e : V3), 0 < s → 0 < rho → rho ≤ q.diameter / 2 →
      nrm e = 1 → dot e f = 0 →
      ∃ (r' w' v' : ℕ → ℝ) (u : V3),
        Tubes q.nodes (q.hubDiameter / 2) (q.diameter / 2) V s (fun i => (M.stn i).r) (fun i => inducedAxial n (M.stn i).r (c.einf i) (c.ei i))
          (fun i => inducedSwirl n (M.stn i).r (c.einf i) (c.ei i)) r' w' v' ∧
        propVel M V n c (q.position - s • f + rho • e) = .ok u ∧
        (rho < r' 0 ∨ r' (q.nodes - 1) < rho → u = 0) ∧
        ∀ i, i + 1 < q.nodes → r' i ≤ rho → rho ≤ r' (i + 1) →
          ∃ w v, Between r' w' i rho w ∧ Between r' v' i rho v ∧ u = w • (-f) + (sense * v) • cross f e := by
  have hg : M.geom = q := (mkPropM_ok hM).2.2.1
  have hN : M.nodes = q.nodes := by unfold PropM.nodes; rw [hg]
  have hD : M.d = q.diameter := by unfold PropM.d; rw [hg]
  have hfw : M.fwd = propForward q := by unfold PropM.fwd; rw [hg]
  have hrt : M.rot = q.rot := by unfold PropM.rot; rw [hg]
  have hvx : ∀ i, vxiAt M n c i = inducedAxial n (M.stn i).r (c.einf i) (c.ei i) := by
    intro i; unfold vxiAt viAt inducedAxial; rw [add_comm (c.ei i)]; ring
  have hvt : ∀ i, vtiAt M n c i = inducedSwirl n (M.stn i).r (c.einf i) (c.ei i) := by
    intro i; unfold vtiAt viAt inducedSwirl; rw [add_comm (c.ei i)]; ring
  refine ⟨propForward q, q.rot, axisOf q, senseOf q, fun s rho e hs hr0 hr he hef => ?_⟩
  obtain ⟨k1, k2, hrp, htube, hfin⟩ := C69_contraction hM hd hh hh' hV c (fun i hi => by rw [hvx]; exact hw i hi) hs.le
  have hff : dot (propForward q) (propForward q) = 1 := dot_fwd q
  set p : V3 := q.position - s • propForward q + rho • e with hp
  have ht : streamT M p = -s := by
    unfold streamT
    rw [hg, hfw, hp, show q.position - s • propForward q + rho • e - q.position = (-s) • propForward q + rho • e by
      ext <;> simp <;> ring, add_dot, smul_dot, smul_dot, hff, hef]
    ring
  have ho : offAxis M p = rho • e := by
    unfold offAxis
    rw [ht, hg, hfw, hp]
    ext <;> simp <;> ring
  have ha : axisDist M p = rho := by
    unfold axisDist
    rw [ho, nrm_smul_pos hr0, he, mul_one]
  have htan : tangentAt M p = rho • cross (propForward q) e := by
    unfold tangentAt
    rw [ho, hfw, cross_smul]
  have hce : nrm (cross (propForward q) e) = 1 := by
    have := lagrange (propForward q) e
    rw [hff, nrm_sq_one he, dot_comm, dot_comm (propForward q), hef] at this
    unfold nrm
    rw [Real.sqrt_eq_one]
    rw [dot_comm]
    linarith
  have htn : nrm (tangentAt M p) = rho := by rw [htan, nrm_smul_pos hr0, hce, mul_one]
  have hin : InStream M p := by
    refine ⟨?_, ?_⟩
    · rw [ha, abs_of_pos hr0, hD]; exact hr
    · rw [ht]; linarith
  have hcore : rPrime M V n c s 0 = q.hubDiameter / 2 := by
    have := (radii_increase hM hd hh hh' 0 (Nat.pos_of_ne_zero (mkPropM_ok hM).2.1)).1
    simp only [rPrime]
    rw [this]
    simp
  refine ⟨rPrime M V n c s, vxPrime M n c s, vtPrime M V n c s,
    (npInterp M.nodes (rPrime M V n c s) (vtPrime M V n c s) rho * M.rot / rho) • (rho • cross (propForward q) e) +
      npInterp M.nodes (rPrime M V n c s) (vxPrime M n c s) rho • (-propForward q), ⟨hcore, fun i hi => ⟨(hrp i (by omega)).1, (htube i hi).1⟩, fun i hi => ?_,
    fun i hi => ?_, fun i hi hi' => ?_, fun i hi => ?_⟩, ?_, ?_, ?_⟩
  · simp only [vxPrime]
    rw [hvx, mul_comm]
    unfold stoneKd
    rw [hD, sq, sq]
  · have := (htube i hi).2
    have hpi := Real.pi_pos
    simp only [vxPrime, ← hvx]
    have h2 : Real.pi * ((rPrime M V n c s (i + 1) ^ 2 - rPrime M V n c s i ^ 2) *
        (V + (vxiAt M n c i * stoneKd M s + vxiAt M n c (i + 1) * stoneKd M s) / 2)) =
        Real.pi * (((M.stn (i + 1)).r ^ 2 - (M.stn i).r ^ 2) * (V + (vxiAt M n c i + vxiAt M n c (i + 1)) / 2)) := by
      linear_combination this
    exact mul_left_cancel₀ hpi.ne' h2
  · have h0 := (hrp i hi').1.ne'
    simp only [vtPrime, ← hvt]
    rw [hN, if_pos hi]
    field_simp
  · have hj : q.nodes / 10 < q.nodes := by omega
    have h0 := (hrp _ hj).1.ne'
    have h1 := (hrp i (by omega)).1.ne'
    simp only [vtPrime, ← hvt]
    rw [hN, if_neg (by omega), if_pos le_rfl]
    field_simp
  · rcases propVel_inside M V n c hin with ⟨-, h | h⟩ | ⟨-, -, h⟩
    · rw [ht, neg_neg] at h; exact absurd hfin h
    · rw [htn] at h; exact absurd h hr0.ne'
    · rw [h, ht, neg_neg, ha, htn, htan, hfw]
  · intro h
    have : ∀ fp, npInterp M.nodes (rPrime M V n c s) fp rho = 0 := by
      intro fp; unfold npInterp; rw [hN, if_pos h]
    rw [this, this]
    ext <;> simp
  · intro i hi h1 h2
    have hinc : ∀ i, i + 1 < M.nodes → rPrime M V n c s i < rPrime M V n c s (i + 1) := fun i hi => (htube i (hN ▸ hi)).1
    have hpos : 0 < rPrime M V n c s (i + 1) - rPrime M V n c s i := sub_pos.2 (hinc i (hN ▸ hi))
    have hb : ∀ y, Between (rPrime M V n c s) y i rho (npInterp M.nodes (rPrime M V n c s) y rho) := by
      intro y
      rw [npInterp_between hinc (hN ▸ hi) h1 h2]
      refine ⟨(rho - rPrime M V n c s i) / (rPrime M V n c s (i + 1) - rPrime M V n c s i), by
        exact div_nonneg (by linarith) hpos.le, by rw [div_le_one hpos]; linarith, ?_, by ring⟩
      have := div_mul_cancel₀ (rho - rPrime M V n c s i) hpos.ne'
      linear_combination -this
    refine ⟨_, _, hb _, hb _, ?_⟩
    rw [hrt, smul_smul]
    have : npInterp M.nodes (rPrime M V n c s) (vtPrime M V n c s) rho * q.rot / rho * rho =
      q.rot * npInterp M.nodes (rPrime M V n c s) (vtPrime M V n c s) rho := by field_simp
    rw [this, add_comm]

/-- the example propeller after its first analysis, and a point one unit behind it, half way out -/
example : ∃ (M : PropM ℕ) (c : Coefs) (n : ℝ) (u : V3), mkPropM (fun _ _ => 0) demoProp 0 none none = .ok M ∧
    (∃ simps fuel st st' o, runProp simps fuel M (some { Vmag := some 10, rho := some 0.002 }) [("J", .num 0.5)] st = (.ok o, st') ∧
      o.c = c ∧ o.n = n) ∧
    (∀ i, i < 2 → 0 ≤ inducedAxial n (M.stn i).r (c.einf i) (c.ei i)) ∧
    propVel M 10 n c (demoProp.position - (1 : ℝ) • propForward demoProp + (0.5 : ℝ) • ⟨0, 1, 0⟩) = .ok u := by
  obtain ⟨M, c, n, hM, hd, hh, hh', hrun, hpos⟩ := demo_induced
  have hw : ∀ i, i < 2 → 0 ≤ inducedAxial n (M.stn i).r (c.einf i) (c.ei i) := by
    intro i hi
    have := (hpos i hi).le
    unfold vxiAt viAt at this
    unfold inducedAxial
    rw [add_comm (c.ei i), show n * 2 * Real.pi = 2 * Real.pi * n by ring] at this
    exact this
  obtain ⟨f, sense, hf, -, h⟩ := C109_velocity hM hd hh hh' (V := 10) (n := n) (by norm_num) c hw
  have hf' : f = propForward demoProp := hf.trans (axisOf demoProp).symm
  subst hf'
  obtain ⟨r', w', v', u, -, hu, -⟩ := h 1 0.5 ⟨0, 1, 0⟩ (by norm_num) (by norm_num) (by norm_num [demoProp]) (by simp [nrm, dot])
    (by simp [dot, propForward, demoProp, rad])
  exact ⟨M, c, n, u, hM, hrun, hw, hu⟩

end Verif
