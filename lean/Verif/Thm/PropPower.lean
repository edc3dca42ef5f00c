import Verif.Spec.PropPower
import Verif.Thm.PropInduced

/-! # C116: a propeller does not deliver more power than its shaft takes -/

namespace Verif
open V3 Act

variable {ι : Type} {simps : List ℝ → List ℝ → ℝ} {fuel : ℕ}

/-- shaft power minus thrust power of an element: lift times induced velocity plus drag times speed -/
theorem element_power (e : Element) (rho n V : ℝ) (B : ℝ) (hc : Real.cos e.einf ≠ 0)
    (hV : Real.tan e.einf * (2 * Real.pi * n * e.r) = V) :
    2 * Real.pi * n * (B * (e.r * e.load rho n * e.tangential)) - V * (B * (e.load rho n * e.axial)) =
      B * (2 * Real.pi * n * e.r / Real.cos e.einf * e.load rho n * (e.CL * Real.sin e.ei + e.CD * Real.cos e.ei)) := by
  have h1 : e.ei = e.phi - e.einf := by unfold Element.phi; ring
  rw [← hV, h1, Real.sin_sub, Real.cos_sub, Real.tan_eq_sin_div_cos]
  unfold Element.tangential Element.axial
  field_simp
  ring

/-- the power an element can gain is bounded by the imbalance left -/
theorem element_loss (e : Element) {rho n B R tip : ℝ} (hr : 0 < e.r) (hn : 0 ≤ n) (hrho : 0 ≤ rho) (hB : 0 ≤ B) (hcb : 0 ≤ e.c)
    (hCD : 0 ≤ e.CD) (hc : 0 < Real.cos e.einf) (hci : 0 < Real.cos e.ei) (hphi : 0 ≤ Real.sin e.phi) :
    -(16 * Real.pi * rho * n * e.r ^ 2 * e.speed n ^ 2 / Real.cos e.einf *
        |imbalance B e.c e.r R tip e.einf e.ei e.CL|) ≤
      B * (2 * Real.pi * n * e.r / Real.cos e.einf * e.load rho n * (e.CL * Real.sin e.ei + e.CD * Real.cos e.ei)) := by
  set d := imbalance B e.c e.r R tip e.einf e.ei e.CL with hd
  set F := Real.arccos (Real.exp (-(B * (1 - e.r / R) / (2 * Real.sin tip)))) with hF
  have hF0 : 0 ≤ F := Real.arccos_nonneg _
  have h1 : B * e.c * e.CL = 16 * e.r * (d + F * Real.tan e.ei * Real.sin e.phi) := by
    rw [hd]
    unfold imbalance
    rw [← hF]
    unfold Element.phi
    field_simp
    ring
  set w := 2 * Real.pi * n * e.r / Real.cos e.einf with hw
  have hw0 : 0 ≤ w := by rw [hw]; positivity
  have hs0 : 0 ≤ e.speed n ^ 2 := sq_nonneg _
  have e1 : B * (w * e.load rho n * (e.CL * Real.sin e.ei + e.CD * Real.cos e.ei)) =
      w * (rho / 2 * e.speed n ^ 2) * ((B * e.c * e.CL) * Real.sin e.ei + B * e.c * e.CD * Real.cos e.ei) := by
    unfold Element.load
    ring
  have e2 : 16 * Real.pi * rho * n * e.r ^ 2 * e.speed n ^ 2 / Real.cos e.einf * |d| =
      w * (rho / 2 * e.speed n ^ 2) * (16 * e.r * |d|) := by
    rw [hw]
    field_simp
  rw [e1, e2, h1, ← mul_neg]
  refine mul_le_mul_of_nonneg_left ?_ (by positivity)
  have h2 : 0 ≤ B * e.c * e.CD * Real.cos e.ei := by positivity
  have h3 : 0 ≤ 16 * e.r * (F * Real.tan e.ei * Real.sin e.phi) * Real.sin e.ei := by
    have : 16 * e.r * (F * Real.tan e.ei * Real.sin e.phi) * Real.sin e.ei =
        16 * e.r * (F * (Real.sin e.ei ^ 2 / Real.cos e.ei) * Real.sin e.phi) := by
      rw [Real.tan_eq_sin_div_cos]; ring
    rw [this]
    positivity
  have h4 : -|d| ≤ d * Real.sin e.ei := by
    have := neg_abs_le (d * Real.sin e.ei)
    rw [abs_mul] at this
    have h5 : |d| * |Real.sin e.ei| ≤ |d| := by
      have := mul_le_mul_of_nonneg_left (Real.abs_sin_le_one e.ei) (abs_nonneg d)
      simpa using this
    linarith
  have h5 := mul_le_mul_of_nonneg_left h4 (by positivity : 0 ≤ 16 * e.r)
  nlinarith

theorem overRadius_mul {N : ℕ} (hs : Homogeneous simps) (a : ℝ) (x y : ℕ → ℝ) :
    overRadius simps N x (fun i => a * y i) = a * overRadius simps N x y := by
  have := hs a 1 ((List.range N).map y) ((List.range N).map x) one_ne_zero (by simp)
  rw [mul_one] at this
  unfold overRadius
  rw [← this, List.map_map, List.map_map]
  congr 1
  simp [Function.comp_def]

theorem overRadius_congr {N : ℕ} {x x' y y' : ℕ → ℝ} (hx : ∀ i, i < N → x i = x' i) (hy : ∀ i, i < N → y i = y' i) :
    overRadius simps N x y = overRadius simps N x' y' := by
  unfold overRadius
  rw [List.map_congr_left fun i hi => hx i (List.mem_range.1 hi), List.map_congr_left fun i hi => hy i (List.mem_range.1 hi)]

theorem propAir_unique {aero : Option (AeroDict ι)} {rho V rho' V' : ℝ} {u u' : V3} (h : PropAir aero rho V u)
    (h' : PropAir aero rho' V' u') : rho = rho' ∧ V = V' := by
  rcases h with ⟨d, e, h1, h2, -⟩ | ⟨e, h1, h2, -⟩ <;> rcases h' with ⟨d', e', h1', h2', -⟩ | ⟨e', h1', h2', -⟩
  · rw [e] at e'; cases e'
    rw [h1] at h1'; rw [h2] at h2'
    exact ⟨by simpa using h1', by simpa using h2'⟩
  · rcases e' with e' | e' <;> rw [e] at e' <;> cases e'
    simp at h1
  · rcases e with e | e <;> rw [e] at e' <;> cases e'
    simp at h1'
  · exact ⟨h1.trans h1'.symm, h2.trans h2'.symm⟩

theorem chordAt_unique {table : String → ℝ → ℝ} {q : PropGeom} {i : ℕ} {c c' : ℝ} (h : ChordAt table q i c) (h' : ChordAt table q i c') :
    c = c' := by
  unfold ChordAt at h h'
  rcases h with ⟨t, h⟩ | ⟨a, t, h1, h⟩ | ⟨a, t, h1, h⟩ | ⟨a, t, h1, h⟩ <;>
    rcases h' with ⟨t', h'⟩ | ⟨a', t', h1', h'⟩ | ⟨a', t', h1', h'⟩ | ⟨a', t', h1', h'⟩ <;>
    (rw [t] at t'; first | (exfalso; revert t'; decide) | (try (rw [h1] at h1'; cases h1')); rw [h, h'])

/-- **C116, the part that holds.** Given: a propeller with non-negative chords turning forwards, in a state in which advance ratio,
rotation rate and airspeed agree (see C59); sections with non-negative drag; stations whose pitch exceeds the advance angle, or
where the air at least does not meet the blade from behind.  Then thrust times airspeed exceeds the shaft power at most by the
integral over the imbalances that the solution has left.

Missing: that the imbalances are zero. -/
theorem C116_power_partial {table : String → ℝ → ℝ} {q : PropGeom} {cg : V3} {units : Option String} {pts : Option (ι → V3)} {M : PropM ι}
    (hM : mkPropM table q cg units pts = .ok M) (hs : Homogeneous simps) (hp : PositiveRule simps)
    (hhub : 0 < q.hubDiameter) (hhub' : q.hubDiameter < 0.999 * q.diameter)
    {aero : Option (AeroDict ι)} {rho V : ℝ} {u : V3} (hair : PropAir aero rho V u) (hrho : 0 ≤ rho) (hV : 0 ≤ V)
    {s : PropDict} (hstate : s = [] ∨ (∃ J, Has s "J" J ∧ J ≠ 0 ∧ V ≠ 0) ∨ (Lacks s "J" ∧ ∃ n, Has s "rot_per_sec" n))
    {st st' : PropSt} {o : PropOut} (h : runProp simps fuel M aero s st = (.ok o, st')) (hn : 0 < o.n)
    (hchord : ∀ i, i < q.nodes → 0 ≤ (M.stn i).cb) (hdrag : ∀ i, i < q.nodes → 0 ≤ o.c.CD i)
    (hfront : ∀ i, i < q.nodes → o.c.einf i < (M.stn i).beta ∨ 0 ≤ o.c.einf i + o.c.ei i) :
    ∃ sense, SenseOf q sense ∧ o.T * V ≤ shaftPower sense o.n o.l + overRadius simps q.nodes (fun i => (M.stn i).r) fun i =>
      16 * Real.pi * rho * o.n * (M.stn i).r ^ 2 *
        (2 * Real.pi * o.n * (M.stn i).r / Real.cos (o.c.einf i) * Real.cos (o.c.ei i)) ^ 2 / Real.cos (o.c.einf i) *
        |imbalance q.blades (M.stn i).cb (M.stn i).r (q.diameter / 2) (M.stn (q.nodes - 1)).beta (o.c.einf i) (o.c.ei i) (o.c.CL i)| := by
  obtain ⟨hd, -, hg, -, -, -, -, af, haf, hst⟩ := mkPropM_ok hM
  have hN : M.nodes = q.nodes := by unfold PropM.nodes; rw [hg]
  have hd0 : 0 < q.diameter := by nlinarith
  obtain ⟨rho', V', sense, u', f, el, hair', -, hsense, hl, hel⟩ := C105_loads hM hs h
  obtain ⟨rfl, rfl⟩ := propAir_unique hair hair'
  rcases hpf : propFlow aero with er | fl
  · unfold runProp at h
    rw [hpf] at h
    simp at h
  obtain ⟨-, hfl⟩ := propAir_unique (propAir_of hpf) hair
  have hstate' : s = [] ∨ (∃ J, Has s "J" J ∧ J ≠ 0 ∧ fl.V ≠ 0) ∨ (Lacks s "J" ∧ ∃ n, Has s "rot_per_sec" n) := by rwa [hfl]
  obtain ⟨J, hJ, hadv⟩ := C59_advance_partial hM hpf hstate' h
  rw [hfl] at hJ hadv
  -- what the analysis says of the angles
  have hang : 2 ≤ q.nodes ∧ ∃ J', (∀ i, o.c.einf i = einfAt J' (M.stn i).zeta) ∧ ∀ i, |o.c.ei i| < 1 ∧
      ((M.stn i).beta - o.c.einf i ≠ 0 → o.c.ei i = 0 ∨ 0 < o.c.ei i * ((M.stn i).beta - o.c.einf i)) := by
    rw [runProp_eq M hpf] at h
    obtain ⟨dr, s1, h1, h2⟩ := bind_ok.1 h
    have h2n : 2 ≤ q.nodes := by
      rw [← hN]
      unfold calcForces at h2
      obtain ⟨_, s2, -, h2⟩ := bind_ok.1 h2
      by_contra hlt
      rw [if_pos (by omega)] at h2
      simp at h2
    obtain ⟨c, h3, h4⟩ := calcForces_ok h2
    obtain ⟨-, e2⟩ := forcesOf_out h4
    obtain ⟨J', s, s', h5⟩ := driveCoefs_some h3
    rw [e2]
    exact ⟨h2n, J', (findCoefs_all h5).2.1, fun i => C67_solution_partial h5 i⟩
  obtain ⟨h2n, J', hein, hei⟩ := hang
  have hN1 : (0 : ℝ) < (q.nodes : ℝ) - 1 := by
    have : (2 : ℝ) ≤ q.nodes := by exact_mod_cast h2n
    linarith
  set step := (0.999 * q.diameter - q.hubDiameter) / 2 / ((q.nodes : ℝ) - 1) with hstep
  have hstep0 : 0 < step := div_pos (by linarith) hN1
  have hnode : ∀ i, i < q.nodes → 0 < (M.stn i).zeta ∧ (M.stn i).r = q.hubDiameter / 2 + i * step ∧
      (M.stn i).r = (el i).r ∧ (M.stn i).cb = (el i).c := by
    intro i hi
    obtain ⟨b1, b2, -⟩ := C103_blade hM hi
    obtain ⟨c1, c2, -⟩ := hel i hi
    obtain ⟨beta, cb, -, -, h1⟩ := hst i hi
    unfold mkStn at h1
    simp only at h1
    split_ifs at h1 with hf
    simp only [Option.some.injEq] at h1
    refine ⟨?_, ?_, b1.trans c1.symm, chordAt_unique b2 c2⟩
    · rw [← h1]
      simp only [zetaAt]
      have h1 : 0 < q.hubDiameter / q.diameter := div_pos hhub hd0
      have h2 : 0 < 0.999 - q.hubDiameter / q.diameter := by
        rw [sub_pos, div_lt_iff₀ hd0]; exact hhub'
      positivity
    · rw [← h1]
      simp only [zetaAt, hstep]
      field_simp
      ring
  refine ⟨sense, hsense, ?_⟩
  set ex : ℕ → ℝ := fun i => 16 * Real.pi * rho * o.n * (M.stn i).r ^ 2 *
        (2 * Real.pi * o.n * (M.stn i).r / Real.cos (o.c.einf i) * Real.cos (o.c.ei i)) ^ 2 / Real.cos (o.c.einf i) *
        |imbalance q.blades (M.stn i).cb (M.stn i).r (q.diameter / 2) (M.stn (q.nodes - 1)).beta (o.c.einf i) (o.c.ei i) (o.c.CL i)|
    with hex
  have hQ : shaftPower sense o.n o.l = 2 * Real.pi * o.n * overRadius simps q.nodes (fun i => (el i).r)
      fun i => q.blades * ((el i).r * (el i).load rho o.n * (el i).tangential) := by
    unfold shaftPower
    rw [hl.torque]
    rcases hsense.1 with e | e <;> rw [e] <;> ring
  have hr : overRadius simps q.nodes (fun i => (M.stn i).r) ex = overRadius simps q.nodes (fun i => (el i).r) ex :=
    overRadius_congr (fun i hi => (hnode i hi).2.2.1) fun _ _ => rfl
  rw [hQ, hl.thrust, hr, ← overRadius_mul hs, mul_comm _ V, ← overRadius_mul hs, ← hp.add]
  have key : 0 ≤ overRadius simps q.nodes (fun i => q.hubDiameter / 2 + i * step) fun i =>
      2 * Real.pi * o.n * (q.blades * ((el i).r * (el i).load rho o.n * (el i).tangential)) + ex i +
        -1 * (V * (q.blades * ((el i).load rho o.n * (el i).axial))) := by
    refine hp.pos _ _ _ _ hstep0 fun i hi => ?_
    obtain ⟨hz, hri, hrr, hcc⟩ := hnode i hi
    obtain ⟨-, -, g1, g2, g3, g4, -⟩ := hel i hi
    obtain ⟨-, ha⟩ := hadv i hi hz
    obtain ⟨hlt, hsign⟩ := hei i
    have hr0 : 0 < (M.stn i).r := by rw [hri]; positivity
    have hce : 0 < Real.cos (o.c.einf i) := by
      rw [hein]; unfold einfAt
      rw [arctan2_pos _ (mul_pos Real.pi_pos hz)]
      exact Real.cos_arctan_pos _
    have hei0 : 0 ≤ o.c.einf i := by
      have ht : 0 ≤ Real.tan (o.c.einf i) := by
        by_contra hneg
        have h3 : 0 < 2 * Real.pi * o.n * (M.stn i).r := by positivity
        nlinarith
      have e : o.c.einf i = Real.arctan (Real.tan (o.c.einf i)) := by
        rw [hein]; unfold einfAt
        rw [arctan2_pos _ (mul_pos Real.pi_pos hz), Real.tan_arctan]
      rw [e]
      exact Real.arctan_nonneg.2 ht
    have hei1 : o.c.einf i < Real.pi / 2 := by
      rw [hein]; unfold einfAt
      rw [arctan2_pos _ (mul_pos Real.pi_pos hz)]
      exact Real.arctan_lt_pi_div_two _
    have hpi := Real.pi_gt_d2
    norm_num at hpi
    obtain ⟨hl1, hl2⟩ := abs_lt.1 hlt
    have hcei : 0 < Real.cos (o.c.ei i) := Real.cos_pos_of_mem_Ioo ⟨by linarith, by linarith⟩
    have hphi : 0 ≤ o.c.einf i + o.c.ei i := by
      rcases hfront i hi with hf | hf
      · have hpos : 0 < (M.stn i).beta - o.c.einf i := sub_pos.2 hf
        rcases hsign hpos.ne' with h1 | h1
        · rw [h1]; linarith
        · have := pos_of_mul_pos_left h1 hpos.le
          linarith
      · exact hf
    have hsin : 0 ≤ Real.sin (el i).phi := by
      unfold Element.phi
      rw [g1, g2]
      exact Real.sin_nonneg_of_nonneg_of_le_pi hphi (by linarith)
    have := element_loss (el i) (rho := rho) (n := o.n) (B := q.blades) (R := q.diameter / 2) (tip := (M.stn (q.nodes - 1)).beta)
      (hrr ▸ hr0) hn.le hrho (by positivity) (hcc ▸ hchord i hi) (g4 ▸ hdrag i hi) (g1 ▸ hce) (g2 ▸ hcei) hsin
    rw [← element_power (el i) rho o.n V q.blades (g1 ▸ hce.ne') (by rw [g1, ← hrr]; exact ha)] at this
    have e : ex i = 16 * Real.pi * rho * o.n * (el i).r ^ 2 * (el i).speed o.n ^ 2 / Real.cos (el i).einf *
        |imbalance q.blades (el i).c (el i).r (q.diameter / 2) (M.stn (q.nodes - 1)).beta (el i).einf (el i).ei (el i).CL| := by
      rw [hex]
      unfold Element.speed
      simp only [hrr, hcc, g1, g2, g3]
    rw [← e] at this
    linarith
  rw [hp.add, overRadius_mul hs] at key
  have hx : ∀ y, overRadius simps q.nodes (fun i => q.hubDiameter / 2 + i * step) y = overRadius simps q.nodes (fun i => (el i).r) y :=
    fun y => overRadius_congr (fun i hi => by rw [← (hnode i hi).2.1, (hnode i hi).2.2.1]) fun _ _ => rfl
  rw [hx, hx] at key
  linarith

/-- **C116 for a solved balance.** If moreover the induced angles balance lift and wake at every station, thrust times airspeed does
not exceed the shaft power: the efficiency is at most 1, and a windmill does not deliver more than its drag takes. -/
theorem C116_efficiency_partial {table : String → ℝ → ℝ} {q : PropGeom} {cg : V3} {units : Option String} {pts : Option (ι → V3)}
    {M : PropM ι} (hM : mkPropM table q cg units pts = .ok M) (hs : Homogeneous simps) (hp : PositiveRule simps)
    (hhub : 0 < q.hubDiameter) (hhub' : q.hubDiameter < 0.999 * q.diameter)
    {aero : Option (AeroDict ι)} {rho V : ℝ} {u : V3} (hair : PropAir aero rho V u) (hrho : 0 ≤ rho) (hV : 0 ≤ V)
    {s : PropDict} (hstate : s = [] ∨ (∃ J, Has s "J" J ∧ J ≠ 0 ∧ V ≠ 0) ∨ (Lacks s "J" ∧ ∃ n, Has s "rot_per_sec" n))
    {st st' : PropSt} {o : PropOut} (h : runProp simps fuel M aero s st = (.ok o, st')) (hn : 0 < o.n)
    (hchord : ∀ i, i < q.nodes → 0 ≤ (M.stn i).cb) (hdrag : ∀ i, i < q.nodes → 0 ≤ o.c.CD i)
    (hfront : ∀ i, i < q.nodes → o.c.einf i < (M.stn i).beta ∨ 0 ≤ o.c.einf i + o.c.ei i)
    (hbal : ∀ i, i < q.nodes → imbalance q.blades (M.stn i).cb (M.stn i).r (q.diameter / 2) (M.stn (q.nodes - 1)).beta
      (o.c.einf i) (o.c.ei i) (o.c.CL i) = 0) :
    ∃ sense, SenseOf q sense ∧ o.T * V ≤ shaftPower sense o.n o.l := by
  obtain ⟨sense, h1, h2⟩ := C116_power_partial hM hs hp hhub hhub' hair hrho hV hstate h hn hchord hdrag hfront
  refine ⟨sense, h1, h2.trans_eq ?_⟩
  rw [add_eq_left, overRadius_congr (x' := fun i => (M.stn i).r) (y' := fun i => 0 * (0 : ℝ)) (fun _ _ => rfl), overRadius_mul hs, zero_mul]
  intro i hi
  simp only [hbal i hi, abs_zero, mul_zero]

/-- an element with pitch below the advance angle and positive lift gives more power than it takes -/
theorem element_gain (e : Element) {n x : ℝ} (hn : 0 < n) (hr0 : 0 < e.r) (hc : 0 < e.c) (hx1 : x ≤ 1) (hx2 : 0.3 < x)
    (he : e.einf = Real.arctan (1.5 * x)) (hei : e.ei = Real.arctan x - Real.arctan (1.5 * x)) (hCL : e.CL = 1) (hCD : e.CD = 0.02)
    (hV : 1.5 * x * (2 * Real.pi * n * e.r) = 10) :
    0 < e.load 0.002 n ∧ 0 < e.axial ∧ 0 < e.tangential ∧
      2 * Real.pi * n * (2 * (e.r * e.load 0.002 n * e.tangential)) < 10 * (2 * (e.load 0.002 n * e.axial)) := by
  have hx0 : 0 < x := lt_trans (by norm_num) hx2
  have hphi : e.phi = Real.arctan x := by unfold Element.phi; rw [he, hei]; ring
  have hcb0 : 0 < Real.cos (Real.arctan x) := Real.cos_arctan_pos _
  have hce0 : 0 < Real.cos (Real.arctan (1.5 * x)) := Real.cos_arctan_pos _
  have hsb : Real.sin (Real.arctan x) = x * Real.cos (Real.arctan x) := by
    have := Real.tan_arctan x
    rw [Real.tan_eq_sin_div_cos, div_eq_iff hcb0.ne'] at this
    exact this
  have hse : Real.sin (Real.arctan (1.5 * x)) = 1.5 * x * Real.cos (Real.arctan (1.5 * x)) := by
    have := Real.tan_arctan (1.5 * x)
    rw [Real.tan_eq_sin_div_cos, div_eq_iff hce0.ne'] at this
    exact this
  have hci : Real.cos e.ei = Real.cos (Real.arctan x) * Real.cos (Real.arctan (1.5 * x)) * (1 + 1.5 * x ^ 2) := by
    rw [hei, Real.cos_sub, hsb, hse]; ring
  have hsi : Real.sin e.ei = -(0.5 * x * (Real.cos (Real.arctan x) * Real.cos (Real.arctan (1.5 * x)))) := by
    rw [hei, Real.sin_sub, hsb, hse]; ring
  have hpow := element_power e 0.002 n 10 2 (by rw [he]; exact hce0.ne') (by rw [he, Real.tan_arctan]; exact hV)
  have hci0 : 0 < Real.cos e.ei := by rw [hci]; positivity
  have hload : 0 < e.load 0.002 n := by
    unfold Element.load Element.speed
    rw [he]
    positivity
  refine ⟨hload, ?_, ?_, ?_⟩
  · unfold Element.axial
    rw [hphi, hCL, hCD, hsb]
    have : 0 < Real.cos (Real.arctan x) * (1 - 0.02 * x) := mul_pos hcb0 (by norm_num; linarith)
    linarith
  · unfold Element.tangential
    rw [hphi, hCL, hCD, hsb]
    positivity
  · have hneg : e.CL * Real.sin e.ei + e.CD * Real.cos e.ei < 0 := by
      rw [hCL, hCD, hci, hsi]
      have h1 : x ^ 2 ≤ x := by nlinarith
      have : -(0.5 * x) + 0.02 * (1 + 1.5 * x ^ 2) < 0 := by norm_num at hx2 ⊢; linarith
      have := mul_neg_of_pos_of_neg (mul_pos hcb0 hce0) this
      linarith
    have hw : 0 < 2 * Real.pi * n * e.r / Real.cos e.einf * e.load 0.002 n := by
      rw [he]; positivity
    have := mul_neg_of_pos_of_neg hw hneg
    linarith

/-- **C116 fails:** the first analysis of a new propeller can report an efficiency above 1, because it can end with an imbalance of
any size (C108).  At advance ratio 1.5 and with an airspeed of 10 there are memory contents with which the thrust is
positive and thrust times airspeed exceeds a positive shaft power. -/
theorem C116_refuted {table : String → ℝ → ℝ} {cg : V3} {units : Option String} {pts : Option (ι → V3)} {M : PropM ι}
    (hM : mkPropM table demoProp cg units pts = .ok M) :
    ∃ mem, ∀ (simps : List ℝ → List ℝ → ℝ) (fuel : ℕ), Homogeneous simps → TwoPoints simps → ∃ o st',
      runProp simps (fuel + 1) M (some { Vmag := some 10, rho := some 0.002 }) [("J", .num 1.5)] { mem } = (.ok o, st') ∧
      ∃ sense, SenseOf demoProp sense ∧ 0 < o.T ∧ 0 < o.n ∧ 0 < shaftPower sense o.n o.l ∧ shaftPower sense o.n o.l < o.T * 10 := by
  obtain ⟨M', hM', hn, hD, hst, -, -⟩ := demo_ok (ι := ι) table cg units pts
  rw [hM] at hM'; cases hM'
  obtain ⟨mem, h⟩ := demo_run hM 10 0.002 (J := 1.5) (by norm_num) (by norm_num) (fun _ => 1) _ 0 [("J", .num 1.5)]
    (fun st => set_J M 10 st (has_singleton _ _) (by norm_num) (by norm_num)) 15
  refine ⟨mem, fun simps fuel hs ht => ?_⟩
  obtain ⟨o, st', h1, hon, h2, -⟩ := h simps fuel
  refine ⟨o, st', h1, ?_⟩
  obtain ⟨rho, V, sense, u, f, el, hair, -, hsense, hl, hel⟩ := C105_loads hM hs h1
  have hair' : PropAir (ι := ι) (some { Vmag := some 10, rho := some 0.002 }) 0.002 10 ⟨-1, 0, 0⟩ := propAir_of (demo_flow 10 0.002)
  obtain ⟨rfl, rfl⟩ := propAir_unique hair hair'
  rw [hD] at hon
  have hon0 : 0 < o.n := by rw [hon]; norm_num
  have hpi := Real.pi_gt_d2
  have hpi2 := Real.pi_lt_d2
  norm_num at hpi hpi2
  -- every element gives thrust, takes torque and gives more power than it takes
  have hi : ∀ i, i < 2 → 0 < (el i).load 0.002 o.n ∧ 0 < (el i).r ∧ 0 < (el i).axial ∧ 0 < (el i).tangential ∧
      2 * Real.pi * o.n * (2 * ((el i).r * (el i).load 0.002 o.n * (el i).tangential)) <
        10 * (2 * ((el i).load 0.002 o.n * (el i).axial)) := by
    intro i hi
    obtain ⟨k1, k2, k3, k4, k5⟩ := h2 i hi
    obtain ⟨z1, z2, z3, z4, -, -, -, z8, -, z10, -⟩ := hst i hi
    obtain ⟨-, b2, -⟩ := C103_blade hM (i := i) (show i < demoProp.nodes from hi)
    obtain ⟨b1, -⟩ := C103_blade hM (i := i) (show i < demoProp.nodes from hi)
    obtain ⟨c1, c2, g1, g2, g3, g4, -⟩ := hel i hi
    have hr : (el i).r = (M.stn i).zeta := by rw [c1, ← b1, z3]
    have hc : (el i).c = 0.1517 * (M.stn i).zeta := by rw [← chordAt_unique b2 c2, z8]
    have hp : 0 < Real.pi * (M.stn i).zeta := mul_pos Real.pi_pos z1
    set x := 1 / (Real.pi * (M.stn i).zeta) with hx
    have hx1 : x ≤ 1 := by
      rw [hx, div_le_one hp]
      norm_num at z10; nlinarith
    have hx2 : 0.3 < x := by
      rw [hx, lt_div_iff₀ hp]
      nlinarith
    have he : (el i).einf = Real.arctan (1.5 * x) := by
      rw [g1, k3]
      unfold einfAt
      rw [arctan2_pos _ hp, hx]
      congr 1
      ring
    have hei : (el i).ei = Real.arctan x - Real.arctan (1.5 * x) := by
      rw [g2, k4, z4, ← g1, he]
    have hV : 1.5 * x * (2 * Real.pi * o.n * (el i).r) = 10 := by
      rw [hr, hx, hon]
      field_simp
    obtain ⟨d1, d2, d3, d4⟩ := element_gain (el i) hon0 (hr ▸ z1) (by rw [hc]; positivity) hx1 hx2 he hei (by rw [g3, k1])
      (by rw [g4, k5]; norm_num) hV
    exact ⟨d1, hr ▸ z1, d2, d3, d4⟩
  have hQ : shaftPower sense o.n o.l = 2 * Real.pi * o.n * overRadius simps 2 (fun i => (el i).r)
      fun i => 2 * ((el i).r * (el i).load 0.002 o.n * (el i).tangential) := by
    unfold shaftPower
    rw [hl.torque]
    rcases hsense.1 with e | e <;> rw [e] <;> simp [demoProp]
  have hT : o.T = overRadius simps 2 (fun i => (el i).r) fun i => 2 * ((el i).load 0.002 o.n * (el i).axial) := by
    rw [hl.thrust]
    simp [demoProp]
  have two : ∀ y : ℕ → ℝ, overRadius simps 2 (fun i => (el i).r) y = ((el 1).r - (el 0).r) * (y 0 + y 1) / 2 := fun y => by
    unfold overRadius
    exact ht _ _ _ _
  rw [two] at hQ hT
  have hrr : 0 < (el 1).r - (el 0).r := by
    rw [(hel 0 (show 0 < 2 by norm_num)).1, (hel 1 (show 1 < 2 by norm_num)).1]
    unfold stationAt demoProp
    norm_num
  obtain ⟨a1, a2, a3, a4, a5⟩ := hi 0 (by norm_num)
  obtain ⟨b1, b2, b3, b4, b5⟩ := hi 1 (by norm_num)
  refine ⟨sense, hsense, ?_, hon0, ?_, ?_⟩
  · rw [hT]; positivity
  · rw [hQ]; positivity
  · rw [hQ, hT]
    have := mul_lt_mul_of_pos_left (add_lt_add a5 b5) hrr
    linarith

/-- the trapezoidal rule -/
noncomputable def trapezoids (ys xs : List ℝ) : ℝ :=
  ((List.range (xs.length - 1)).map fun i => (xs.getD (i + 1) 0 - xs.getD i 0) * (ys.getD i 0 + ys.getD (i + 1) 0) / 2).sum

theorem trapezoids_homogeneous : Homogeneous trapezoids := by
  intro a b ys xs _ _
  unfold trapezoids
  have h : ∀ (c : ℝ) (l : List ℝ) (i : ℕ), (l.map (c * ·)).getD i 0 = c * l.getD i 0 := fun c l i => by
    rw [List.getD_eq_getElem?_getD, List.getD_eq_getElem?_getD, List.getElem?_map]
    rcases l[i]? with _ | v <;> simp
  simp only [h, List.length_map]
  rw [← List.sum_map_mul_left]
  congr 1
  refine List.map_congr_left fun i _ => ?_
  ring

theorem trapezoids_two : TwoPoints trapezoids := by
  intro x0 x1 y0 y1
  simp [trapezoids]

theorem trapezoids_over (N : ℕ) (x y : ℕ → ℝ) :
    overRadius trapezoids N x y = ((List.range (N - 1)).map fun i => (x (i + 1) - x i) * (y i + y (i + 1)) / 2).sum := by
  unfold overRadius trapezoids
  rw [List.length_map, List.length_range]
  congr 1
  refine List.map_congr_left fun i hi => ?_
  have hi := List.mem_range.1 hi
  have h : ∀ (f : ℕ → ℝ) (k : ℕ), k < N → ((List.range N).map f).getD k 0 = f k := fun f k hk => by
    rw [List.getD_eq_getElem?_getD, List.getElem?_map, List.getElem?_range hk]
    rfl
  rw [h x i (by omega), h x (i + 1) (by omega), h y i (by omega), h y (i + 1) (by omega)]

theorem trapezoids_positive : PositiveRule trapezoids := by
  constructor
  · intro N x y z
    rw [trapezoids_over, trapezoids_over, trapezoids_over, ← List.sum_map_add]
    congr 1
    refine List.map_congr_left fun i _ => ?_
    ring
  · intro N x0 h y hh hy
    rw [trapezoids_over]
    refine List.sum_nonneg fun v hv => ?_
    obtain ⟨i, hi, rfl⟩ := List.mem_map.1 hv
    have hi := List.mem_range.1 hi
    have h1 := hy i (by omega)
    have h2 := hy (i + 1) (by omega)
    push_cast
    have : x0 + ((i : ℝ) + 1) * h - (x0 + i * h) = h := by ring
    rw [this]
    positivity

/-- a run with solved balance that meets all hypotheses of `C116_efficiency_partial` -/
example : ∃ (M : PropM ℕ) (mem : ℕ → ℕ → Option ℝ) (o : PropOut) (st' : PropSt),
    mkPropM (fun _ _ => 0) demoProp 0 none none = .ok M ∧
    runProp trapezoids 1 M (some { Vmag := some 10, rho := some 0.002 }) [("J", .num 0.5)] { mem } = (.ok o, st') ∧
    ∃ sense, SenseOf demoProp sense ∧ o.T * 10 ≤ shaftPower sense o.n o.l := by
  obtain ⟨M, hM, hn, hD, hst, -, -⟩ := demo_ok (ι := ℕ) (fun _ _ => 0) 0 none none
  obtain ⟨mem, h⟩ := demo_imbalance hM 0
  obtain ⟨o, st', h1, hon, h2⟩ := h trapezoids 0
  refine ⟨M, mem, o, st', hM, h1, C116_efficiency_partial hM trapezoids_homogeneous trapezoids_positive (by norm_num [demoProp])
    (by norm_num [demoProp]) (propAir_of (demo_flow 10 0.002)) (by norm_num) (by norm_num)
    (.inr (.inl ⟨0.5, has_singleton _ _, by norm_num, by norm_num⟩)) h1 (by rw [hon]; norm_num) (fun i hi => ?_) (fun i hi => ?_)
    (fun i hi => .inl ?_) fun i hi => ?_⟩
  · obtain ⟨z1, -, -, -, -, -, -, z8, -⟩ := hst i hi
    rw [z8]; positivity
  · exact (h2 i hi).2.1
  · exact (h2 i hi).2.2
  · have := (h2 i hi).1
    simpa [demoProp] using this

end Verif
