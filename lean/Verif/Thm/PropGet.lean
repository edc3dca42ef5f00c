import Verif.Model.PropGet
import Verif.Spec.PropGet
import Verif.Thm.PropElement
import Verif.Thm.PropPower
import Verif.Thm.PropBlade
import Verif.Thm.PropMirror
import Verif.Thm.PropRot

/-!
# What the getters of a propeller model report (C149)
-/

namespace Verif
open V3 Act

variable {ι : Type} {simps : List ℝ → List ℝ → ℝ} {fuel : ℕ}

/-- the velocities the code computes form a triangle -/
theorem triangle_of {V n r e i : ℝ} (hc : 0 < Real.cos e) (hi : |i| < 1) (hV : Real.tan e * (2 * Real.pi * n * r) = V) :
    VelocityTriangle V n r e i (n * 2 * Real.pi * r * Real.sin i / Real.cos e) (n * 2 * Real.pi * r * Real.sin i / Real.cos e * Real.cos (i + e))
      (n * 2 * Real.pi * r * Real.sin i / Real.cos e * Real.sin (i + e)) := by
  have hce := hc.ne'
  have hpi := Real.pi_pos
  have hci : 0 < Real.cos i := by
    have h1 := abs_lt.1 hi
    have h2 := Real.pi_gt_three
    exact Real.cos_pos_of_mem_Ioo ⟨by linarith, by linarith⟩
  have hse : Real.tan e * Real.cos e = Real.sin e := Real.tan_mul_cos hce
  have hVe : V = 2 * Real.pi * n * r / Real.cos e * Real.sin e := by
    rw [← hV, ← hse]; field_simp
  have hs : Real.sin e = Real.sin (i + e) * Real.cos i - Real.cos (i + e) * Real.sin i := by
    rw [← Real.sin_sub]; congr 1; ring
  have hk : Real.cos e = Real.cos (i + e) * Real.cos i + Real.sin (i + e) * Real.sin i := by
    rw [← Real.cos_sub]; congr 1; ring
  have h1 := Real.sin_sq_add_cos_sq i
  have h2 := Real.sin_sq_add_cos_sq (i + e)
  have a1 : V + n * 2 * Real.pi * r * Real.sin i / Real.cos e * Real.cos (i + e) = 2 * Real.pi * n * r / Real.cos e * Real.cos i * Real.sin (i + e) := by
    rw [hVe, hs]; ring
  have a2 : 2 * Real.pi * n * r - n * 2 * Real.pi * r * Real.sin i / Real.cos e * Real.sin (i + e) =
      2 * Real.pi * n * r / Real.cos e * Real.cos i * Real.cos (i + e) := by
    field_simp
    rw [show Real.cos e - Real.sin i * Real.sin (i + e) = Real.cos i * Real.cos (i + e) by rw [hk]; ring]
    ring
  have pos : 0 < n * r → 0 < 2 * Real.pi * n * r / Real.cos e := fun h => by
    rw [show 2 * Real.pi * n * r = 2 * Real.pi * (n * r) by ring]; positivity
  refine ⟨⟨2 * Real.pi * n * r / Real.cos e, pos, hVe, by field_simp⟩, ⟨2 * Real.pi * n * r / Real.cos e * Real.cos i, fun h => mul_pos (pos h) hci, ?_, ?_⟩, ?_, ?_⟩
  · rw [a1, add_comm e]
  · rw [a2, add_comm e]
  · rw [a1, a2]; ring
  · rw [show ∀ a b c : ℝ, (a * b) ^ 2 + (a * c) ^ 2 = a ^ 2 * (c ^ 2 + b ^ 2) from fun _ _ _ => by ring, h2, mul_one]

/-- **C149** (partial: apart from the value for clockwise rotation, see `C149_refuted`; the triangle for states given by `J` or
`rot_per_sec` or by default, since the rate found for a power or a throttle is that of the coefficients only up to the tolerance of the
iteration).  After an analysis of a propeller, the getters of its model report: the name, number of nodes and blades and position it was
given, its orientation in radians, and its sense of rotation; at every node the radius, the chord and the zero-lift angle described; a
pitch that is the sum of the angles of advance, of induction and of attack; the lift and drag of the section at that angle of attack; and
induced velocities that, together with airspeed and rotation, make up these angles. -/
theorem C149_report_partial {table : String → ℝ → ℝ} {q : PropGeom} {cg : V3} {units : Option String} {pts : Option (ι → V3)} {M : PropM ι}
    (hM : mkPropM table q cg units pts = .ok M) {aero : Option (AeroDict ι)} {s : PropDict} {st st' : PropSt} {o : PropOut}
    (h : runProp simps fuel M aero s st = (.ok o, st')) :
    let R := propReport M o
    R.name = q.name ∧ R.nodes = q.nodes ∧ R.blades = q.blades ∧ R.position = q.position ∧
    R.orientation = (q.orientation.1 * (Real.pi / 180), q.orientation.2 * (Real.pi / 180)) ∧ SenseOf q R.rotation ∧
    ∀ i, i < q.nodes → R.radius i = stationAt q i * (q.diameter / 2) ∧ ChordAt table q i (R.chord i) ∧ AlongBlade q (·.al0) i (R.zeroLift i) ∧
      R.pitch i = R.advance i + R.induced i + R.alpha i ∧
      (∃ m, sectionCL (M.stn i) m (R.alpha i) = some (R.CL i)) ∧ (∃ m, sectionCD (M.stn i) m (R.CL i) (R.alpha i) = some (R.CD i)) ∧
      ∀ rho V u, PropAir aero rho V u → 0 < stationAt q i →
        (s = [] ∨ (∃ J, Has s "J" J ∧ J ≠ 0 ∧ V ≠ 0) ∨ (Lacks s "J" ∧ ∃ n, Has s "rot_per_sec" n)) →
        VelocityTriangle V o.n (R.radius i) (R.advance i) (R.induced i) (R.Vi i) (R.Vx i) (R.Vt i) := by
  intro R
  obtain ⟨hd, hn, hg, -, -, -, -, af, haf, hst⟩ := mkPropM_ok hM
  have hN : M.nodes = q.nodes := by unfold PropM.nodes; rw [hg]
  rcases hpf : propFlow aero with er | fl
  · unfold runProp at h
    rw [hpf] at h
    simp at h
  have h' := h
  rw [runProp_eq M hpf] at h'
  obtain ⟨dr, s1, h1, h2⟩ := bind_ok.1 h'
  obtain ⟨c, h3, h4⟩ := calcForces_ok h2
  obtain ⟨e1, e2⟩ := forcesOf_out h4
  obtain ⟨J, t, t', h5⟩ := driveCoefs_some h3
  obtain ⟨hcos, heinf, halpha, CLa, mem, mem', up, dn, hsec, -⟩ := findCoefs_all h5
  refine ⟨congrArg PropGeom.name hg, hN, congrArg PropGeom.blades hg, congrArg PropGeom.position hg, ?_, ?_, fun i hi => ?_⟩
  · simp only [R, propReport, hg, rad]
    exact Prod.ext (by simp only; ring) (by simp only; ring)
  · have : R.rotation = q.rot := congrArg PropGeom.rot hg
    rw [this]; exact senseOf q
  obtain ⟨b1, b2, b3, -⟩ := C103_blade hM hi
  obtain ⟨g1, g2, -⟩ := hsec i (hN ▸ hi)
  subst e2
  refine ⟨b1, b2, b3, ?_, ⟨_, g1⟩, ⟨_, g2⟩, fun rho V u hair hz hs => ?_⟩
  · simp only [R, propReport]
    rw [halpha i]; ring
  obtain ⟨-, rfl⟩ := propAir_unique (propAir_of hpf) hair
  obtain ⟨K, -, hK⟩ := C59_advance_partial hM hpf hs h
  have hz' : 0 < (M.stn i).zeta := by
    obtain ⟨beta, cb, -, -, h6⟩ := hst i hi
    unfold mkStn at h6
    simp only at h6
    split_ifs at h6
    simp only [Option.some.injEq] at h6
    rw [← h6]
    simpa only [zetaAt_eq] using hz
  have hc : 0 < Real.cos (o.c.einf i) := by
    rw [heinf i]
    unfold einfAt
    rw [arctan2_pos _ (mul_pos Real.pi_pos hz')]
    exact Real.cos_arctan_pos _
  exact triangle_of hc (C67_solution_partial h5 i).1 (hK i hi hz').2

/-- **C149 fails** for the direction of rotation: `get_rotation_direction` is documented to return 0 for clockwise rotation, but it
returns -1 for every propeller described as clockwise. -/
theorem C149_refuted {table : String → ℝ → ℝ} {q : PropGeom} {cg : V3} {units : Option String} {pts : Option (ι → V3)} {M : PropM ι}
    (hM : mkPropM table q cg units pts = .ok M) (hq : q.rotDir = .str "CW") (o : PropOut) :
    (propReport M o).rotation = -1 ∧ (propReport M o).rotation ≠ 0 := by
  have hg := (mkPropM_ok hM).2.2.1
  have : (propReport M o).rotation = q.rot := congrArg PropGeom.rot hg
  have hs := (senseOf q).2.2 (.inl hq)
  rw [this, hs]
  norm_num

/-- a propeller and an analysis C149 speaks of, at a speed and rate of rotation that are not zero, with every node off the axis -/
example : ∃ (M : PropM ℕ) (mem : ℕ → ℕ → Option ℝ), mkPropM (fun _ _ => 0) demoProp 0 none none = .ok M ∧
    (Lacks [("rot_per_sec", .num 10)] "J" ∧ Has [("rot_per_sec", .num 10)] "rot_per_sec" 10) ∧
    (∀ i, i < demoProp.nodes → 0 < stationAt demoProp i) ∧
    ∃ o st1, runProp (fun _ _ => 1) 1 M (some { Vmag := some 10, rho := some 0.002 }) [("rot_per_sec", .num 10)] { mem } = (.ok o, st1) ∧
      o.n = 10 ∧ (propReport M o).CL 0 = 1 ∧ (propReport M o).induced 0 ≠ 0 ∧ (propReport M o).Vi 0 ≠ 0 := by
  obtain ⟨M, hM, -, hd, hs, hz0, -⟩ := demo_ok (ι := ℕ) (fun _ _ => 0) 0 none none
  have hl : Lacks [("rot_per_sec", .num 10)] "J" := by simp [Lacks, dictGet]
  obtain ⟨mem, h⟩ := demo_run hM 10 0.002 (J := 10 / (10 * M.d)) (by rw [hd]; norm_num) (by rw [hd]; norm_num) (fun _ => 1) 10 0 _
    (fun s => (set_rot M 10 s hl (has_singleton _ _)).trans (if_neg (by rw [hd]; norm_num))) 15
  obtain ⟨o, st', r1, n1, hc, -⟩ := h (fun _ _ => 1) 0
  obtain ⟨k1, -, k3, k4, -⟩ := hc 0 (by norm_num)
  obtain ⟨j1, -, j3, j4, -⟩ := hs 0 (by norm_num)
  have hpz := mul_pos Real.pi_pos j1
  have hei : 0 < o.c.ei 0 := by
    rw [k4, k3, j4, hd]
    unfold einfAt
    rw [arctan2_pos _ hpz, sub_pos]
    exact Real.arctan_strictMono (div_lt_div_of_pos_right (by norm_num) hpz)
  obtain ⟨J, t, t', h5⟩ : ∃ J t t', findCoefs M (fun _ _ => 1) 1 J t = (.ok o.c, t') := by
    have h' := r1
    rcases hpf : propFlow (some ({ Vmag := some 10, rho := some 0.002 } : AeroDict ℕ)) with er | fl
    · unfold runProp at h'
      rw [hpf] at h'
      simp at h'
    rw [runProp_eq M hpf] at h'
    obtain ⟨dr, s1, -, h2⟩ := bind_ok.1 h'
    obtain ⟨c, h3, h4⟩ := calcForces_ok h2
    rw [(forcesOf_out h4).2]
    exact driveCoefs_some h3
  refine ⟨M, mem, hM, ⟨hl, has_singleton _ _⟩, fun i hi => ?_, o, st', r1, n1, k1, hei.ne', ?_⟩
  · have hi : i < 2 := hi
    unfold stationAt demoProp
    obtain rfl | rfl : i = 0 ∨ i = 1 := by omega
    all_goals norm_num
  · have h1 := abs_lt.1 (C67_solution_partial h5 0).1
    have h2 : 0 < Real.sin (o.c.ei 0) := Real.sin_pos_of_pos_of_lt_pi hei (by linarith [Real.pi_gt_three])
    have h3 : Real.cos (o.c.einf 0) ≠ 0 := by
      rw [k3]; unfold einfAt; rw [arctan2_pos _ hpz]; exact (Real.cos_arctan_pos _).ne'
    have h4 : (M.stn 0).r ≠ 0 := by rw [j3]; exact j1.ne'
    show viAt M o.n o.c 0 ≠ 0
    unfold viAt
    rw [n1]
    have := Real.pi_ne_zero
    have := h2.ne'
    positivity

/-- a clockwise propeller -/
example : ∃ M : PropM ℕ, mkPropM (fun _ _ => 0) { demoProp with rotDir := .str "CW" } 0 none none = .ok M := by
  obtain ⟨M, hM, -⟩ := demo_ok (ι := ℕ) (fun _ _ => 0) 0 none none
  obtain ⟨hd, hn, -, -, -, -, hm, af, haf, h⟩ := mkPropM_ok hM
  obtain ⟨M', h'⟩ := mkPropM_of (q := { demoProp with rotDir := .str "CW" }) (0 : V3) none (none : Option (ℕ → V3)) hd hn haf hm fun i hi => by
    obtain ⟨b, c, h1, h2, h3⟩ := h i hi
    exact ⟨b, c, _, h1, h2, h3⟩
  exact ⟨M', h'⟩

end Verif
