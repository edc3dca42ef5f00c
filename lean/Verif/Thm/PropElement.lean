import Verif.Spec.PropElement
import Verif.Thm.PropHistory
import Verif.Thm.Blade
import Verif.Thm.LLConditions

/-! # C105: thrust, torque and moments of a propeller are integrals over its blade elements -/

namespace Verif
open V3 Act

variable {ι : Type} {simps : List ℝ → List ℝ → ℝ} {fuel : ℕ}

/-- the values that `_find_coefficients` leaves behind, with the slope of the lift curve -/
theorem findCoefs_all {M : PropM ι} {J : ℝ} {st st' : PropSt} {c : Coefs} (h : findCoefs M simps fuel J st = (.ok c, st')) :
    (∀ i, i < M.nodes → Real.cos (c.einf i) ≠ 0) ∧ (∀ i, c.einf i = einfAt J (M.stn i).zeta) ∧
    (∀ i, c.alpha i = (M.stn i).beta - c.einf i - c.ei i) ∧
    ∃ (CLa : ℕ → ℝ) (mem mem' : ℕ → Option ℝ) (up dn : ℕ → ℝ),
      (∀ i, i < M.nodes → sectionCL (M.stn i) (mem i) (c.alpha i) = some (c.CL i) ∧
        sectionCD (M.stn i) (mem' i) (c.CL i) (c.alpha i) = some (c.CD i) ∧
        (∃ m, sectionCL (M.stn i) m (c.alpha i + 0.001) = some (up i)) ∧
        (∃ m, sectionCL (M.stn i) m (c.alpha i - 0.001) = some (dn i)) ∧ CLa i = (up i - dn i) / 0.002) ∧
      c.CT = Real.pi ^ 2 / 4 * overBlade M simps (fun i => (M.stn i).zeta * (M.stn i).zeta * (M.stn i).chatb *
        (Real.cos (c.ei i) * Real.cos (c.ei i) / (Real.cos (c.einf i) * Real.cos (c.einf i))) *
        (c.CL i * Real.cos (c.einf i + c.ei i) - c.CD i * Real.sin (c.einf i + c.ei i))) ∧
      c.Cl = Real.pi ^ 2 / 8 * overBlade M simps (fun i => (M.stn i).zeta * (M.stn i).zeta * (M.stn i).zeta * (M.stn i).chatb *
        (Real.cos (c.ei i) * Real.cos (c.ei i) / (Real.cos (c.einf i) * Real.cos (c.einf i))) *
        (c.CD i * Real.cos (c.einf i + c.ei i) + c.CL i * Real.sin (c.einf i + c.ei i))) ∧
      c.CNa = Real.pi ^ 2 / 8 * overBlade M simps (fun i => (M.stn i).zeta * (M.stn i).zeta * (M.stn i).chatb *
        (Real.cos (c.ei i) * Real.cos (c.ei i)) *
        (2 * Real.tan (c.einf i) * (c.CD i * Real.cos (c.einf i + c.ei i) + c.CL i * Real.sin (c.einf i + c.ei i)) -
          Real.tan (c.einf i) * Real.tan (c.einf i) *
            (c.CL i * Real.cos (c.einf i + c.ei i) - (CLa i + c.CD i) * Real.sin (c.einf i + c.ei i)))) ∧
      c.Cna = Real.pi ^ 2 / 16 * overBlade M simps (fun i => (M.stn i).zeta * (M.stn i).zeta * (M.stn i).zeta * (M.stn i).chatb *
        (Real.cos (c.ei i) * Real.cos (c.ei i)) *
        (2 * Real.tan (c.einf i) * (c.CL i * Real.cos (c.einf i + c.ei i) - c.CD i * Real.sin (c.einf i + c.ei i)) +
          Real.tan (c.einf i) * Real.tan (c.einf i) *
            ((CLa i + c.CD i) * Real.cos (c.einf i + c.ei i) + c.CL i * Real.sin (c.einf i + c.ei i)))) := by
  unfold findCoefs at h
  simp only [change_bind] at h
  obtain ⟨_, s1, h1, h⟩ := bind_ok.1 h
  obtain ⟨ei, s2, -, h⟩ := bind_ok.1 h
  rw [change_bind] at h
  unfold coefsAt at h
  simp only at h
  obtain ⟨CL, s3, h3, h⟩ := bind_ok.1 h
  obtain ⟨CD, s4, h4, h⟩ := bind_ok.1 h
  obtain ⟨CLa, s5, h5, h⟩ := bind_ok.1 h
  unfold getCLa at h5
  obtain ⟨up, s6, h6, h5⟩ := bind_ok.1 h5
  obtain ⟨dn, s7, h7, h5⟩ := bind_ok.1 h5
  simp only [pure_run, Prod.mk.injEq, Except.ok.injEq] at h h5
  rw [getCL_run] at h3 h6 h7
  rw [getCD_run] at h4
  have hfin := (finite_eq_ok.1 h1).1
  rw [← h.1]
  refine ⟨fun i hi => (hfin.2 i hi).2, fun _ => rfl, fun _ => rfl, CLa, _, _, up, dn, fun i hi =>
    ⟨(allSome_eq_ok.1 h3).1 i hi, (allSome_eq_ok.1 h4).1 i hi, ⟨_, (allSome_eq_ok.1 h6).1 i hi⟩,
      ⟨_, (allSome_eq_ok.1 h7).1 i hi⟩, ?_⟩, ?_, ?_, ?_, ?_⟩
  · rw [← h5.1]; norm_num; ring
  all_goals simp only [sq]

/-- whatever the rotation rate was found from, the coefficients are those of some advance ratio -/
theorem driveCoefs_some {M : PropM ι} {fl : PFlow} {dr : Drive} {st st' : PropSt} {c : Coefs}
    (h : driveCoefs M simps fuel fl dr st = (.ok c, st')) : ∃ J s s', findCoefs M simps fuel J s = (.ok c, s') := by
  have key : ∀ {f : ℝ → Act PropSt (ℝ × Coefs)} {fuel' : ℕ} {s s' : PropSt} {n : ℝ} {c : Coefs},
      (∀ x y c s s', f x s = (.ok (y, c), s') → ∃ J s s', findCoefs M simps fuel J s = (.ok c, s')) →
      findRate f fuel' s = (.ok (n, c), s') → ∃ J s s', findCoefs M simps fuel J s = (.ok c, s') := by
    intro f fuel' s s' n c hf h
    rcases findRate_ok h with ⟨y, s, s', h1, -⟩ | ⟨a, b, ya, yb, ca, s1, s1', s2, s2', h1, h2, -⟩
    · exact hf _ _ _ _ _ h1
    · exact hf _ _ _ _ _ ‹_›
  cases dr with
  | atJ J => exact ⟨J, st, st', h⟩
  | power P =>
    unfold driveCoefs at h
    obtain ⟨⟨n, c'⟩, s2, h5, h6⟩ := bind_ok.1 h
    simp only [change_bind] at h6
    obtain ⟨_, s3, h7, h8⟩ := bind_ok.1 h6
    simp only [pure_run, Prod.mk.injEq, Except.ok.injEq] at h8
    obtain ⟨rfl, rfl⟩ := h8
    refine key (fun x y c s s' hx => ?_) h5
    unfold powerDiff at hx
    obtain ⟨c2, s4, g1, g2⟩ := bind_ok.1 hx
    simp only [pure_run, Prod.mk.injEq, Except.ok.injEq] at g2
    obtain ⟨⟨-, rfl⟩, rfl⟩ := g2
    obtain ⟨-, s, s', h⟩ := coefsAtRate_ok g1
    exact ⟨_, s, s', h⟩
  | motor thr =>
    unfold driveCoefs at h
    rcases hm : M.motor with _ | m
    · simp only [hm] at h; simp at h
    simp only [hm] at h
    obtain ⟨⟨n, c'⟩, s2, h5, h6⟩ := bind_ok.1 h
    simp only [change_bind] at h6
    obtain ⟨_, s3, h7, h8⟩ := bind_ok.1 h6
    simp only [pure_run, Prod.mk.injEq, Except.ok.injEq] at h8
    obtain ⟨rfl, rfl⟩ := h8
    refine key (fun x y c s s' hx => ?_) h5
    unfold torqueDiff at hx
    obtain ⟨c2, s4, g1, g2⟩ := bind_ok.1 hx
    obtain ⟨Tq, s5, g3, g4⟩ := bind_ok.1 g2
    simp only [pure_run, Prod.mk.injEq, Except.ok.injEq] at g4
    obtain ⟨⟨-, rfl⟩, rfl⟩ := g4
    obtain ⟨-, s, s', h⟩ := coefsAtRate_ok g1
    exact ⟨_, s, s', h⟩

theorem propAir_of {aero : Option (AeroDict ι)} {fl : PFlow} (h : propFlow aero = .ok fl) : PropAir aero fl.rho fl.V fl.u := by
  rcases aero with _ | d
  · unfold propFlow at h
    simp only [Except.ok.injEq] at h
    rw [← h]
    exact .inr ⟨.inl rfl, rfl, rfl, rfl⟩
  unfold propFlow at h
  simp only at h
  split_ifs at h with ht
  · rcases hf : freestream 1 (d.alpha.getD 0) (d.beta.getD 0) with _ | u
    · rw [hf] at h; cases h
    rw [hf] at h
    rcases hV : d.Vmag with _ | V
    · rw [hV] at h; cases h
    rcases hr : d.rho with _ | r
    · rw [hV, hr] at h; cases h
    rw [hV, hr] at h
    simp only [Except.ok.injEq] at h
    rw [← h]
    exact .inl ⟨d, rfl, hr, hV, isWind_of hf⟩
  · simp only [Except.ok.injEq] at h
    rw [← h]
    refine .inr ⟨.inr ?_, rfl, rfl, rfl⟩
    rcases d with ⟨a, b, c, e, f, g, i, j, k⟩
    simp only [AeroDict.truthy, Bool.or_eq_true, not_or, Bool.not_eq_true, Option.isSome_eq_false_iff, Option.isNone_iff_eq_none] at ht
    obtain ⟨⟨⟨⟨⟨⟨⟨⟨rfl, rfl⟩, rfl⟩, rfl⟩, rfl⟩, rfl⟩, rfl⟩, rfl⟩, rfl⟩ := ht
    rfl

theorem PropAir.unit {aero : Option (AeroDict ι)} {rho V : ℝ} {u : V3} (h : PropAir aero rho V u) : nrm u = 1 := by
  rcases h with ⟨d, -, -, -, h, -⟩ | ⟨-, -, -, rfl⟩
  · rw [h]; simp
  · simp [nrm, dot]

theorem axisOf (q : PropGeom) : AxisOf q (propForward q) := by
  unfold AxisOf propForward rad
  simp only [mul_div_assoc]

theorem senseOf (q : PropGeom) : SenseOf q q.rot := by
  refine ⟨rot_cases q, ?_, ?_⟩
  · rintro (h | h | h) <;> unfold PropGeom.rot <;> rw [h] <;> simp
  · rintro (h | h | h) <;> unfold PropGeom.rot <;> rw [h] <;> norm_num <;> decide

/-- from the dimensionless integral to the one over the radius -/
theorem overBlade_scale (hs : Homogeneous simps) (M : PropM ι) {b : ℝ} (hb : b ≠ 0) (a : ℝ) {r y y' : ℕ → ℝ}
    (hr : ∀ i, i < M.nodes → r i = b * (M.stn i).zeta) (hy : ∀ i, i < M.nodes → y' i = a * y i) :
    overRadius simps M.nodes r y' = a * b * overBlade M simps y := by
  unfold overRadius overBlade
  rw [← hs a b _ _ hb (by simp)]
  simp only [List.map_map]
  congr 1 <;> refine List.map_congr_left fun i hi => ?_ <;> rw [List.mem_range] at hi
  · exact hy i hi
  · exact hr i hi

theorem nrm_sq_one {a : V3} (h : nrm a = 1) : dot a a = 1 := by
  unfold nrm at h
  rwa [Real.sqrt_eq_one] at h

theorem cos_vecAngle {f u : V3} (hf : nrm f = 1) (hu : nrm u = 1) : Real.cos (vecAngle f (-u)) = -dot u f := by
  have hn : nrm (-u) = 1 := by
    rw [← hu]; unfold nrm; congr 1; simp [dot]
  unfold vecAngle
  rw [hf, hn, mul_one, div_one]
  have hd : dot f (-u) = -dot u f := by simp [dot]; ring
  have hf2 := nrm_sq_one hf
  have hu2 := nrm_sq_one hu
  have h1 : 0 ≤ dot (f + u) (f + u) := by simp only [dot]; nlinarith [sq_nonneg (f + u).x, sq_nonneg (f + u).y, sq_nonneg (f + u).z]
  have h2 : 0 ≤ dot (f - u) (f - u) := by simp only [dot]; nlinarith [sq_nonneg (f - u).x, sq_nonneg (f - u).y, sq_nonneg (f - u).z]
  have e1 : dot (f + u) (f + u) = dot f f + 2 * dot u f + dot u u := by simp [dot]; ring
  have e2 : dot (f - u) (f - u) = dot f f - 2 * dot u f + dot u u := by simp [dot]; ring
  rw [hd, Real.cos_arccos] <;> linarith

/-- identities of a blade element -/
theorem across_eq {rho n B D zeta r c e i CL CD CLa : ℝ} (he : Real.cos e ≠ 0) (hD : D ≠ 0) (hr : r = D / 2 * zeta) :
    B * ((⟨r, c, e, i, CL, CD, CLa⟩ : Element).load rho n * (⟨r, c, e, i, CL, CD, CLa⟩ : Element).across) =
    rho * Real.pi ^ 2 * n ^ 2 * D ^ 3 / 4 * (zeta * zeta * (B * c / D) * (Real.cos i * Real.cos i) *
        (2 * Real.tan e * (CD * Real.cos (e + i) + CL * Real.sin (e + i)) -
          Real.tan e * Real.tan e * (CL * Real.cos (e + i) - (CLa + CD) * Real.sin (e + i)))) := by
  simp only [Element.load, Element.across, Element.tangential, Element.speed, Element.phi, hr, Real.sin_two_mul,
    Real.tan_eq_sin_div_cos]
  generalize Real.sin (e + i) = s1
  generalize Real.cos (e + i) = c1
  generalize Real.cos e = c0 at *
  generalize Real.sin e = s0
  generalize Real.cos i = c2
  field_simp
  ring

theorem oneSided_eq {rho n B D zeta r c e i CL CD CLa : ℝ} (he : Real.cos e ≠ 0) (hD : D ≠ 0) (hr : r = D / 2 * zeta) :
    B * ((⟨r, c, e, i, CL, CD, CLa⟩ : Element).r * (⟨r, c, e, i, CL, CD, CLa⟩ : Element).load rho n *
      (⟨r, c, e, i, CL, CD, CLa⟩ : Element).oneSided) =
    rho * Real.pi ^ 2 * n ^ 2 * D ^ 4 / 8 * (zeta * zeta * zeta * (B * c / D) * (Real.cos i * Real.cos i) *
        (2 * Real.tan e * (CL * Real.cos (e + i) - CD * Real.sin (e + i)) +
          Real.tan e * Real.tan e * ((CLa + CD) * Real.cos (e + i) + CL * Real.sin (e + i)))) := by
  simp only [Element.load, Element.oneSided, Element.axial, Element.speed, Element.phi, hr, Real.sin_two_mul,
    Real.tan_eq_sin_div_cos]
  generalize Real.sin (e + i) = s1
  generalize Real.cos (e + i) = c1
  generalize Real.cos e = c0 at *
  generalize Real.sin e = s0
  generalize Real.cos i = c2
  field_simp
  ring

/-- the direction of the force across the axis -/
theorem isDirection_across (u : V3) {f : V3} (hff : dot f f = 1)
    (h : Real.sqrt ((cross (cross (-u) f) f).x ^ 2 + (cross (cross (-u) f) f).y ^ 2 + (cross (cross (-u) f) f).z ^ 2) ≠ 0) :
    IsDirection (u - dot u f • f) ((1 / Real.sqrt ((cross (cross (-u) f) f).x ^ 2 + (cross (cross (-u) f) f).y ^ 2 +
      (cross (cross (-u) f) f).z ^ 2)) • cross (cross (-u) f) f) := by
  have hdu : cross (cross (-u) f) f = u - dot u f • f := by
    simp only [dot] at hff
    ext
    · simp [dot]; linear_combination u.x * hff
    · simp [dot]; linear_combination u.y * hff
    · simp [dot]; linear_combination u.z * hff
  rw [hdu] at h ⊢
  generalize u - dot u f • f = v at h ⊢
  have hlen : Real.sqrt (v.x ^ 2 + v.y ^ 2 + v.z ^ 2) = nrm v := by
    unfold nrm dot; congr 1; ring
  rw [hlen] at h ⊢
  have h0 : 0 ≤ dot v v := by simp only [dot]; nlinarith [sq_nonneg v.x, sq_nonneg v.y, sq_nonneg v.z]
  refine ⟨nrm v, lt_of_le_of_ne (Real.sqrt_nonneg _) (Ne.symm h), ?_, ?_⟩
  · rw [smul_smul, mul_one_div_cancel h, one_smul]
  · have : dot ((1 / nrm v) • v) ((1 / nrm v) • v) = 1 := by
      rw [smul_dot, dot_smul, show dot v v = nrm v ^ 2 from (Real.sq_sqrt h0).symm]
      field_simp
    unfold nrm at this ⊢
    rw [this, Real.sqrt_one]

/-- **C105.** Whatever state the propeller was in and however its rotation rate was found, what an analysis returns are the loads of
blade elements in the air of the aerodynamic state: at the stations of the blade, with the described chords, with section
coefficients at the angle of attack left over by advance and induced angle. -/
theorem C105_loads {table : String → ℝ → ℝ} {q : PropGeom} {cg : V3} {units : Option String} {pts : Option (ι → V3)} {M : PropM ι}
    (hM : mkPropM table q cg units pts = .ok M) (hs : Homogeneous simps) {aero : Option (AeroDict ι)} {s : PropDict} {st st' : PropSt}
    {o : PropOut} (h : runProp simps fuel M aero s st = (.ok o, st')) :
    ∃ (rho V sense : ℝ) (u f : V3) (el : ℕ → Element), PropAir aero rho V u ∧ AxisOf q f ∧ SenseOf q sense ∧
      LoadsOf simps q cg rho u f sense o.n el o ∧
      ∀ i, i < q.nodes → (el i).r = stationAt q i * (q.diameter / 2) ∧ ChordAt table q i (el i).c ∧
        (el i).einf = o.c.einf i ∧ (el i).ei = o.c.ei i ∧ (el i).CL = o.c.CL i ∧ (el i).CD = o.c.CD i ∧
        o.c.alpha i = (M.stn i).beta - (el i).phi ∧
        (∃ m, sectionCL (M.stn i) m (o.c.alpha i) = some (el i).CL) ∧
        (∃ m, sectionCD (M.stn i) m (el i).CL (o.c.alpha i) = some (el i).CD) ∧
        ∃ m m' up dn, sectionCL (M.stn i) m (o.c.alpha i + 0.001) = some up ∧
          sectionCL (M.stn i) m' (o.c.alpha i - 0.001) = some dn ∧ (el i).CLa = (up - dn) / 0.002 := by
  obtain ⟨hd, hn, hg, hcg, -, -, -, af, haf, hst⟩ := mkPropM_ok hM
  have hN : M.nodes = q.nodes := by unfold PropM.nodes; rw [hg]
  have hD : M.d = q.diameter := by unfold PropM.d; rw [hg]
  have hfw : M.fwd = propForward q := by unfold PropM.fwd; rw [hg]
  have hrt : M.rot = q.rot := by unfold PropM.rot; rw [hg]
  have hc : ∀ i, i < M.nodes → (M.stn i).r = q.diameter / 2 * (M.stn i).zeta ∧
      (M.stn i).chatb = q.blades * (M.stn i).cb / q.diameter := by
    intro i hi
    obtain ⟨beta, cb, -, -, h1⟩ := hst i (hN ▸ hi)
    unfold mkStn at h1
    simp only at h1
    split_ifs at h1 with hf
    simp only [Option.some.injEq] at h1
    rw [← h1]
    exact ⟨by ring, rfl⟩
  rcases hpf : propFlow aero with er | fl
  · unfold runProp at h
    rw [hpf] at h
    simp at h
  rw [runProp_eq M hpf] at h
  obtain ⟨dr, s1, h1, h2⟩ := bind_ok.1 h
  obtain ⟨c, h3, h4⟩ := calcForces_ok h2
  obtain ⟨e1, e2⟩ := forcesOf_out h4
  obtain ⟨J, s, s', h5⟩ := driveCoefs_some h3
  obtain ⟨hcos, -, halpha, CLa, mem, mem', up, dn, hsec, hCT, hCl, hCN, hCn⟩ := findCoefs_all h5
  have hair := propAir_of hpf
  let el : ℕ → Element := fun i => ⟨(M.stn i).r, (M.stn i).cb, c.einf i, c.ei i, c.CL i, c.CD i, CLa i⟩
  have hb : q.diameter / 2 ≠ 0 := div_ne_zero hd two_ne_zero
  have hr : ∀ i, i < M.nodes → (el i).r = q.diameter / 2 * (M.stn i).zeta := fun i hi => (hc i hi).1
  refine ⟨fl.rho, fl.V, q.rot, fl.u, propForward q, el, hair, axisOf q, senseOf q, ?_, ?_⟩
  · rw [e1]
    generalize hnn : st'.rps = n at h4
    have iT : fl.rho * (n * n) * q.diameter ^ 4 * c.CT = overRadius simps q.nodes (fun i => (el i).r)
        fun i => q.blades * ((el i).load fl.rho n * (el i).axial) := by
      rw [← hN, overBlade_scale hs M hb (fl.rho * Real.pi ^ 2 * n ^ 2 * q.diameter ^ 3 / 2) hr ?_, hCT]
      · ring
      · intro i hi
        have := hcos i hi
        simp only [Element.load, Element.axial, Element.speed, Element.phi, el, (hc i hi).1, (hc i hi).2]
        field_simp
    have iQ : fl.rho * (n * n) * q.diameter ^ 5 * c.Cl = overRadius simps q.nodes (fun i => (el i).r)
        fun i => q.blades * ((el i).r * (el i).load fl.rho n * (el i).tangential) := by
      rw [← hN, overBlade_scale hs M hb (fl.rho * Real.pi ^ 2 * n ^ 2 * q.diameter ^ 4 / 4) hr ?_, hCl]
      · ring
      · intro i hi
        have := hcos i hi
        simp only [Element.load, Element.tangential, Element.speed, Element.phi, el, (hc i hi).1, (hc i hi).2]
        field_simp
        ring
    have iN : fl.rho * (n * n) * q.diameter ^ 4 * c.CNa = overRadius simps q.nodes (fun i => (el i).r)
        fun i => q.blades * ((el i).load fl.rho n * (el i).across) := by
      rw [← hN, overBlade_scale hs M hb (fl.rho * Real.pi ^ 2 * n ^ 2 * q.diameter ^ 3 / 4) hr ?_, hCN]
      · ring
      · intro i hi
        rw [(hc i hi).2]
        exact across_eq (hcos i hi) hd (hc i hi).1
    have iY : fl.rho * (n * n) * q.diameter ^ 5 * c.Cna = overRadius simps q.nodes (fun i => (el i).r)
        fun i => q.blades * ((el i).r * (el i).load fl.rho n * (el i).oneSided) := by
      rw [← hN, overBlade_scale hs M hb (fl.rho * Real.pi ^ 2 * n ^ 2 * q.diameter ^ 4 / 8) hr ?_, hCn]
      · ring
      · intro i hi
        rw [(hc i hi).2]
        exact oneSided_eq (hcos i hi) hd (hc i hi).1
    have hδ := cos_vecAngle (nrm_fwd q) hair.unit
    unfold forcesOf at h4
    simp only [bind, Except.bind, hD, hfw, hrt, hg, hcg] at h4
    split_ifs at h4 with h6 h7
    · simp only [pure, Except.pure, Except.ok.injEq] at h4
      rw [← h4]
      refine ⟨iT, by rw [← iQ]; ring, 0, 0, h6 ▸ hδ, le_rfl, Real.pi_pos.le, .inl rfl, ?_, ?_⟩
      · ext <;> simp
      · ext <;> simp <;> ring
    · simp only [pure, Except.pure, Except.ok.injEq] at h4
      rw [← h4]
      have hdir := isDirection_across fl.u (dot_fwd q) h7
      refine ⟨iT, by rw [← iQ]; ring, _, _, hδ, Real.arccos_nonneg _, Real.arccos_le_pi _, .inr hdir, ?_, ?_⟩
      · rw [← iN]
        simp only
        rw [show vecAngle (propForward q) (-fl.u) * (fl.rho * (n * n) * q.diameter ^ 4 * c.CNa) =
          fl.rho * (n * n) * q.diameter ^ 4 * c.CNa * vecAngle (propForward q) (-fl.u) by ring]
      · rw [← iY]
        ext <;> simp <;> ring
  · intro i hi
    obtain ⟨b1, b2, -⟩ := C103_blade hM hi
    obtain ⟨g1, g2, ⟨m, g3⟩, ⟨m', g4⟩, g5⟩ := hsec i (hN ▸ hi)
    rw [e2]
    refine ⟨b1, b2, rfl, rfl, rfl, rfl, ?_, ⟨_, g1⟩, ⟨_, g2⟩, m, m', up i, dn i, g3, g4, g5⟩
    rw [halpha i]
    simp only [Element.phi, el]
    ring

/-- Simpson's rule is homogeneous; here with three points at uneven distances -/
example : Homogeneous fun ys xs => match ys, xs with
    | [y0, y1, y2], [x0, x1, x2] => (x2 - x0) / 6 * (y0 * (2 - (x2 - x1) / (x1 - x0)) +
        y1 * ((x2 - x0) * (x2 - x0) / ((x1 - x0) * (x2 - x1))) + y2 * (2 - (x1 - x0) / (x2 - x1)))
    | _, _ => 0 := by
  intro a b ys xs hb hl
  have hsub : ∀ x y : ℝ, b * x - b * y = b * (x - y) := fun x y => by ring
  rcases ys with _ | ⟨y0, _ | ⟨y1, _ | ⟨y2, _ | ⟨y3, ys⟩⟩⟩⟩ <;> rcases xs with _ | ⟨x0, _ | ⟨x1, _ | ⟨x2, _ | ⟨x3, xs⟩⟩⟩⟩ <;>
    simp at hl ⊢
  simp only [hsub]
  rw [mul_div_mul_left _ _ hb, mul_div_mul_left _ _ hb, show b * (x2 - x0) * (b * (x2 - x0)) = b * b * ((x2 - x0) * (x2 - x0)) by ring,
    show b * (x1 - x0) * (b * (x2 - x1)) = b * b * ((x1 - x0) * (x2 - x1)) by ring, mul_div_mul_left _ _ (mul_ne_zero hb hb)]
  ring

/-- a propeller and a run the theorem speaks of -/
example : ∃ (M : PropM ℕ) (simps : List ℝ → List ℝ → ℝ) (P : ℝ) (st : PropSt) (o : PropOut) (st' : PropSt),
    mkPropM (fun _ _ => 0) demoProp 0 none none = .ok M ∧ Homogeneous simps ∧
    runProp simps 1 M (some { Vmag := some 10, rho := some 0.002 }) [("brake_power", .num P)] st = (.ok o, st') := by
  obtain ⟨M, hM, -⟩ := demo_ok (ι := ℕ) (fun _ _ => 0) 0 none none
  obtain ⟨mem, -, P, ⟨o, st', h, -⟩, -⟩ := C86_refuted hM 10 0.002 (by norm_num) (by norm_num)
    (fun ys xs => match ys, xs with
    | [y0, y1], [x0, x1] => (x1 - x0) * (y0 + y1) / 2
    | _, _ => 0) 0
  refine ⟨M, _, P, _, o, st', hM, ?_, h⟩
  intro a b ys xs hb hl
  rcases ys with _ | ⟨y0, _ | ⟨y1, _ | ⟨y2, ys⟩⟩⟩ <;> rcases xs with _ | ⟨x0, _ | ⟨x1, _ | ⟨x2, xs⟩⟩⟩ <;> simp at hl ⊢
  ring

end Verif
