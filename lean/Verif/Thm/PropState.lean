import Verif.Examples.Prop
import Verif.Spec.Prop

/-!
# Operating state of propellers and their totals (C59 – C63)
-/

namespace Verif
open V3 Act

variable {ι : Type} {simps : List ℝ → List ℝ → ℝ} {fuel : ℕ}

/-- the dictionary has the number `x` under `key` -/
def Has (s : PropDict) (key : String) (x : ℝ) : Prop := dictGet s key = some (.num x)
/-- the dictionary has no entry `key` -/
def Lacks (s : PropDict) (key : String) : Prop := dictGet s key = none

theorem Has.real {s : PropDict} {key : String} {x : ℝ} (h : Has s key x) : psReal s key = .ok x := by
  unfold psReal; rw [h]; rfl
theorem Has.isSome {s : PropDict} {key : String} {x : ℝ} (h : Has s key x) : (dictGet s key).isSome = true := by
  rw [h]; rfl
theorem Lacks.isSome {s : PropDict} {key : String} (h : Lacks s key) : ¬ (dictGet s key).isSome = true := by
  rw [h]; simp
theorem Has.ne {s : PropDict} {key : String} {x : ℝ} (h : Has s key x) : s ≠ [] := by
  rintro rfl; simp [Has, dictGet] at h

section
variable (M : PropM ι) (V : ℝ) {s : PropDict} (st : PropSt)

theorem set_empty : setPropDict M V [] st = (.ok (.atJ 0.5), { st with rps := V / (M.d * 0.5) }) := by
  unfold setPropDict; rw [if_pos rfl]; rfl

theorem set_J {J : ℝ} (h : Has s "J" J) (hJ : J ≠ 0) (hV : V ≠ 0) :
    setPropDict M V s st = (.ok (.atJ J), { st with rps := V / (M.d * J) }) := by
  unfold setPropDict
  rw [if_neg h.ne, if_pos h.isSome, h.real, lift_ok_bind, if_neg (by tauto)]
  rfl

theorem set_J_static {J n : ℝ} (h : Has s "J" J) (hJ : J = 0 ∨ V = 0) (hn : Has s "rot_per_sec" n) :
    setPropDict M V s st = (.ok (.atJ J), { st with rps := n }) := by
  unfold setPropDict
  rw [if_neg h.ne, if_pos h.isSome, h.real, lift_ok_bind, if_pos hJ, if_pos hn.isSome, hn.real]
  rfl

theorem set_J_missing {J : ℝ} (h : Has s "J" J) (hJ : J = 0 ∨ V = 0) (hn : Lacks s "rot_per_sec") :
    setPropDict M V s st = (.error .runtime, st) := by
  unfold setPropDict
  rw [if_neg h.ne, if_pos h.isSome, h.real, lift_ok_bind, if_pos hJ, if_neg hn.isSome]
  rfl

open Classical in
theorem set_rot {n : ℝ} (h : Lacks s "J") (hn : Has s "rot_per_sec" n) :
    setPropDict M V s st =
      if n * M.d = 0 then (.error .zeroDiv, { st with rps := n }) else (.ok (.atJ (V / (n * M.d))), { st with rps := n }) := by
  unfold setPropDict
  rw [if_neg hn.ne, if_neg h.isSome, if_pos hn.isSome, hn.real, lift_ok_bind, change_bind]
  split_ifs <;> rfl

theorem set_power {P : ℝ} (h : Lacks s "J") (h' : Lacks s "rot_per_sec") (hP : Has s "brake_power" P) :
    setPropDict M V s st = (.ok (.power P), st) := by
  unfold setPropDict
  rw [if_neg hP.ne, if_neg h.isSome, if_neg h'.isSome, if_pos hP.isSome, hP.real]
  rfl

theorem set_motor {t : ℝ} (h : Lacks s "J") (h' : Lacks s "rot_per_sec") (h'' : Lacks s "brake_power")
    (ht : Has s "electric_throttle" t) : setPropDict M V s st = (.ok (.motor t), st) := by
  unfold setPropDict
  rw [if_neg ht.ne, if_neg h.isSome, if_neg h'.isSome, if_neg h''.isSome, if_pos ht.isSome, ht.real]
  rfl

theorem set_none (hs : s ≠ []) (h : Lacks s "J") (h' : Lacks s "rot_per_sec") (h'' : Lacks s "brake_power")
    (h3 : Lacks s "electric_throttle") : setPropDict M V s st = (.error .runtime, st) := by
  unfold setPropDict
  rw [if_neg hs, if_neg h.isSome, if_neg h'.isSome, if_neg h''.isSome, if_neg h3.isSome]
  rfl

end

theorem has_singleton (k : String) (x : ℝ) : Has [(k, .num x)] k x := by simp [Has, dictGet]

theorem runProp_eq (M : PropM ι) {aero : Option (AeroDict ι)} {fl : PFlow} (hf : propFlow aero = .ok fl) (s : PropDict) (st : PropSt) :
    runProp simps fuel M aero s st =
      (setPropDict M fl.V s >>= fun dr => calcForces M simps fuel fl dr) st := by
  unfold runProp
  rw [hf, lift_ok_bind]

theorem runProp_congr (M : PropM ι) {aero : Option (AeroDict ι)} {fl : PFlow} (hf : propFlow aero = .ok fl)
    {s s' : PropDict} {st : PropSt} (h : setPropDict M fl.V s st = setPropDict M fl.V s' st) :
    runProp simps fuel M aero s st = runProp simps fuel M aero s' st := by
  rw [runProp_eq M hf, runProp_eq M hf, bind_def, bind_def, h]

/-- **C60.** The keys of a propeller state are read in the order `J`, `rot_per_sec`, `brake_power`, `electric_throttle`: an
analysis with several of them gives what the first one alone gives (outcome and state of the propeller).  With a zero
advance ratio or zero airspeed `rot_per_sec` is needed beside `J`, otherwise `RuntimeError`; a non-empty dictionary with none
of the keys raises `RuntimeError`; the empty one means `J = 0.5`. -/
theorem C60_precedence (M : PropM ι) {aero : Option (AeroDict ι)} {fl : PFlow} (hf : propFlow aero = .ok fl) (s : PropDict)
    (st : PropSt) :
    (∀ J, Has s "J" J → J ≠ 0 → fl.V ≠ 0 →
      runProp simps fuel M aero s st = runProp simps fuel M aero [("J", .num J)] st) ∧
    (∀ J n, Has s "J" J → J = 0 ∨ fl.V = 0 → Has s "rot_per_sec" n →
      runProp simps fuel M aero s st = runProp simps fuel M aero [("J", .num J), ("rot_per_sec", .num n)] st) ∧
    (∀ J, Has s "J" J → J = 0 ∨ fl.V = 0 → Lacks s "rot_per_sec" →
      runProp simps fuel M aero s st = (.error .runtime, st)) ∧
    (∀ n, Lacks s "J" → Has s "rot_per_sec" n →
      runProp simps fuel M aero s st = runProp simps fuel M aero [("rot_per_sec", .num n)] st) ∧
    (∀ P, Lacks s "J" → Lacks s "rot_per_sec" → Has s "brake_power" P →
      runProp simps fuel M aero s st = runProp simps fuel M aero [("brake_power", .num P)] st) ∧
    (∀ t, Lacks s "J" → Lacks s "rot_per_sec" → Lacks s "brake_power" → Has s "electric_throttle" t →
      runProp simps fuel M aero s st = runProp simps fuel M aero [("electric_throttle", .num t)] st) ∧
    (s ≠ [] → Lacks s "J" → Lacks s "rot_per_sec" → Lacks s "brake_power" → Lacks s "electric_throttle" →
      runProp simps fuel M aero s st = (.error .runtime, st)) ∧
    (s = [] → fl.V ≠ 0 → runProp simps fuel M aero s st = runProp simps fuel M aero [("J", .num 0.5)] st) := by
  refine ⟨fun J h hJ hV => ?_, fun J n h hJ hn => ?_, fun J h hJ hn => ?_, fun n h hn => ?_, fun P h h' hP => ?_,
    fun t h h' h'' ht => ?_, fun hs h h' h'' h3 => ?_, fun hs hV => ?_⟩
  · exact runProp_congr M hf (by rw [set_J M _ st h hJ hV, set_J M _ st (has_singleton _ _) hJ hV])
  · refine runProp_congr M hf ?_
    rw [set_J_static M _ st h hJ hn, set_J_static M _ st (by simp [Has, dictGet]) hJ (n := n) (by simp [Has, dictGet])]
  · rw [runProp_eq M hf, bind_of_error (set_J_missing M _ st h hJ hn)]
  · refine runProp_congr M hf ?_
    rw [set_rot M _ st h hn, set_rot M _ st (by simp [Lacks, dictGet]) (has_singleton _ _)]
  · refine runProp_congr M hf ?_
    rw [set_power M _ st h h' hP, set_power M _ st (by simp [Lacks, dictGet]) (by simp [Lacks, dictGet]) (has_singleton _ _)]
  · refine runProp_congr M hf ?_
    rw [set_motor M _ st h h' h'' ht, set_motor M _ st (by simp [Lacks, dictGet]) (by simp [Lacks, dictGet])
      (by simp [Lacks, dictGet]) (has_singleton _ _)]
  · rw [runProp_eq M hf, bind_of_error (set_none M _ st hs h h' h'' h3)]
  · subst hs
    refine runProp_congr M hf ?_
    rw [set_empty, set_J M _ st (has_singleton _ _) (by norm_num) hV]

/-! ### C59 -/

theorem calcForces_ok {M : PropM ι} {fl : PFlow} {dr : Drive} {st st' : PropSt} {o : PropOut}
    (h : calcForces M simps fuel fl dr st = (.ok o, st')) :
    ∃ c, driveCoefs M simps fuel fl dr st = (.ok c, st') ∧ forcesOf M fl st'.rps c = .ok o := by
  unfold calcForces at h
  obtain ⟨c, s1, h1, h⟩ := bind_ok.1 h
  split_ifs at h
  · simp at h
  · rw [get_bind] at h
    obtain ⟨h2, rfl⟩ := lift_eq_ok.1 h
    exact ⟨c, h1, h2⟩

theorem forcesOf_out {M : PropM ι} {fl : PFlow} {n : ℝ} {c : Coefs} {o : PropOut} (h : forcesOf M fl n c = .ok o) :
    o.n = n ∧ o.c = c := by
  unfold forcesOf at h
  simp only [bind, Except.bind] at h
  split_ifs at h with h1 h2
  · simp only [pure, Except.pure, Except.ok.injEq] at h; rw [← h]; exact ⟨rfl, rfl⟩
  · simp only [pure, Except.pure, Except.ok.injEq] at h; rw [← h]; exact ⟨rfl, rfl⟩

open Classical in
theorem keeps_rps_finite (p : Prop) : Keeps PropSt.rps (Act.finite p : Act PropSt Unit) := by
  unfold Act.finite
  exact Keeps.ite (Keeps.ret _) (Keeps.raise _)

theorem keeps_rps_getCL (M : PropM ι) (a : ℕ → ℝ) : Keeps PropSt.rps (getCL M a) := by
  unfold getCL
  refine Keeps.bind (fun _ => rfl) fun mem => ?_
  unfold Act.allSome
  exact Keeps.ite (Keeps.ret _) (Keeps.raise _)

theorem keeps_rps_eiFunction (M : PropM ι) (einf ei : ℕ → ℝ) : Keeps PropSt.rps (eiFunction M einf ei) := by
  unfold eiFunction
  refine Keeps.bind (keeps_rps_getCL M _) fun CL => Keeps.bind (keeps_rps_finite _) fun _ => Keeps.pure _

theorem keeps_rps_eiLoop (M : PropM ι) (einf : ℕ → ℝ) (fuel k : ℕ) (x0 x1 x2 y0 y1 : ℕ → ℝ) :
    Keeps PropSt.rps (eiLoop M einf fuel k x0 x1 x2 y0 y1) := by
  induction fuel generalizing k x0 x1 x2 y0 y1 with
  | zero => exact Keeps.raise _
  | succ fuel ih =>
    unfold eiLoop
    exact Keeps.ite (Keeps.pure _) (Keeps.bind (keeps_rps_eiFunction M _ _) fun _ => ih _ _ _ _ _ _)

theorem keeps_rps_findCoefs (M : PropM ι) (simps : List ℝ → List ℝ → ℝ) (fuel : ℕ) (J : ℝ) :
    Keeps PropSt.rps (findCoefs M simps fuel J) := by
  unfold findCoefs
  refine Keeps.bind (Keeps.change fun st => by split_ifs <;> rfl) fun _ => Keeps.bind (keeps_rps_finite _) fun _ =>
    Keeps.bind ?_ fun ei => Keeps.bind (Keeps.change fun _ => rfl) fun _ => ?_
  · unfold findEi
    exact Keeps.bind Keeps.get fun st => Keeps.bind (keeps_rps_eiFunction M _ _) fun _ =>
      Keeps.bind (keeps_rps_eiFunction M _ _) fun _ => keeps_rps_eiLoop M _ _ _ _ _ _ _ _
  · unfold coefsAt
    refine Keeps.bind (keeps_rps_getCL M _) fun CL => Keeps.bind ?_ fun CD => Keeps.bind ?_ fun CLa => Keeps.pure _
    · unfold getCD
      refine Keeps.bind (fun _ => rfl) fun mem => ?_
      unfold Act.allSome
      exact Keeps.ite (Keeps.ret _) (Keeps.raise _)
    · unfold getCLa
      exact Keeps.bind (keeps_rps_getCL M _) fun _ => Keeps.bind (keeps_rps_getCL M _) fun _ => Keeps.pure _

theorem findCoefs_einf {M : PropM ι} {J : ℝ} {st st' : PropSt} {c : Coefs}
    (h : findCoefs M simps fuel J st = (.ok c, st')) (i : ℕ) : c.einf i = einfAt J (M.stn i).zeta := by
  unfold findCoefs at h
  simp only [change_bind] at h
  obtain ⟨_, s1, -, h⟩ := bind_ok.1 h
  obtain ⟨ei, s2, -, h⟩ := bind_ok.1 h
  rw [change_bind] at h
  unfold coefsAt at h
  simp only at h
  obtain ⟨CL, s3, -, h⟩ := bind_ok.1 h
  obtain ⟨CD, s4, -, h⟩ := bind_ok.1 h
  obtain ⟨CLa, s5, -, h⟩ := bind_ok.1 h
  simp only [pure_run, Prod.mk.injEq, Except.ok.injEq] at h
  rw [← h.1]

theorem calcForces_atJ {M : PropM ι} {fl : PFlow} {J : ℝ} {st st' : PropSt} {o : PropOut}
    (h : calcForces M simps fuel fl (.atJ J) st = (.ok o, st')) :
    o.n = st.rps ∧ ∀ i, o.c.einf i = einfAt J (M.stn i).zeta := by
  obtain ⟨c, h1, h2⟩ := calcForces_ok h
  obtain ⟨e1, e2⟩ := forcesOf_out h2
  have h3 := keeps_rps_findCoefs M simps fuel J st
  have h1 : findCoefs M simps fuel J st = (.ok c, st') := h1
  rw [h1] at h3
  refine ⟨e1.trans h3, fun i => ?_⟩
  rw [e2]
  exact findCoefs_einf h1 i

theorem advance_of_J {M : PropM ι} {J n V : ℝ} (hJ : J * n * M.d = V) {i : ℕ} (hz : 0 < (M.stn i).zeta)
    (hr : (M.stn i).r = (M.stn i).zeta * M.d * 0.5) :
    Real.tan (einfAt J (M.stn i).zeta) * (2 * Real.pi * n * (M.stn i).r) = V := by
  unfold einfAt
  rw [arctan2_pos _ (mul_pos Real.pi_pos hz), Real.tan_arctan, hr, ← hJ]
  have := Real.pi_ne_zero
  have := hz.ne'
  field_simp
  ring

/-- **C59, the part that holds.** After an analysis with a state given by `J` or `rot_per_sec`, or by default, the advance
angle at every node is that of airspeed `V` and blade speed `2 pi n r` for the rotation rate `n` used: equivalently
`J n D = V`.  (Assumes that if `J` is given, neither it nor the airspeed is zero.) -/
theorem C59_advance_partial {table : String → ℝ → ℝ} {q : PropGeom} {cg : V3} {units : Option String}
    {pts : Option (ι → V3)} {M : PropM ι} (hM : mkPropM table q cg units pts = .ok M)
    {aero : Option (AeroDict ι)} {fl : PFlow} (hf : propFlow aero = .ok fl) {s : PropDict} {st st' : PropSt} {o : PropOut}
    (hs : s = [] ∨ (∃ J, Has s "J" J ∧ J ≠ 0 ∧ fl.V ≠ 0) ∨ (Lacks s "J" ∧ ∃ n, Has s "rot_per_sec" n))
    (h : runProp simps fuel M aero s st = (.ok o, st')) :
    ∃ J, J * o.n * M.d = fl.V ∧ ∀ i, i < q.nodes → 0 < (M.stn i).zeta →
      Real.tan (o.c.einf i) = J / (Real.pi * (M.stn i).zeta) ∧
      Real.tan (o.c.einf i) * (2 * Real.pi * o.n * (M.stn i).r) = fl.V := by
  obtain ⟨hd, -, hg, -, -, -, -, af, -, hst⟩ := mkPropM_ok hM
  have hd' : M.d ≠ 0 := by unfold PropM.d; rw [hg]; exact hd
  rw [runProp_eq M hf] at h
  obtain ⟨dr, s1, h1, h2⟩ := bind_ok.1 h
  have key : ∃ J, dr = .atJ J ∧ J * s1.rps * M.d = fl.V := by
    rcases hs with rfl | ⟨J, hJ, hJ0, hV⟩ | ⟨hJ, n, hn⟩
    · rw [set_empty] at h1
      cases h1
      refine ⟨_, rfl, ?_⟩
      field_simp
    · rw [set_J M _ st hJ hJ0 hV] at h1
      cases h1
      refine ⟨_, rfl, ?_⟩
      simp only
      field_simp
    · rw [set_rot M _ st hJ hn] at h1
      split_ifs at h1 with h0
      · cases h1
      · cases h1
        refine ⟨_, rfl, ?_⟩
        have hn0 : n ≠ 0 := left_ne_zero_of_mul h0
        simp only
        field_simp
  obtain ⟨J, rfl, hJ⟩ := key
  obtain ⟨e1, e2⟩ := calcForces_atJ h2
  rw [← e1] at hJ
  refine ⟨J, hJ, fun i hi hz => ⟨?_, ?_⟩⟩
  · rw [e2]
    unfold einfAt
    rw [arctan2_pos _ (mul_pos Real.pi_pos hz), Real.tan_arctan]
  · obtain ⟨beta, cb, -, -, hs⟩ := hst i hi
    rw [e2]
    refine advance_of_J hJ hz ?_
    unfold mkStn at hs
    simp only at hs
    split_ifs at hs
    simp only [Option.some.injEq] at hs
    rw [← hs]
    unfold PropM.d
    rw [hg]

/-- **C59 fails** when `rot_per_sec = n` is given together with `J` and exactly one of `J` and the airspeed is zero: both
numbers are kept as given, and `J n D` is not the airspeed (for `n ≠ 0`).  Every analysis that succeeds then uses advance
angles that do not belong to the airspeed and rotation rate. -/
theorem C59_refuted {M : PropM ι} (hd : M.d ≠ 0) {aero : Option (AeroDict ι)} {fl : PFlow} (hf : propFlow aero = .ok fl)
    {s : PropDict} {J n : ℝ} (hJ : Has s "J" J) (hn : Has s "rot_per_sec" n) (hn0 : n ≠ 0)
    (h01 : (J = 0 ∧ fl.V ≠ 0) ∨ (J ≠ 0 ∧ fl.V = 0)) {st st' : PropSt} {o : PropOut}
    (h : runProp simps fuel M aero s st = (.ok o, st')) :
    o.n = n ∧ J * o.n * M.d ≠ fl.V ∧
    ∀ i, 0 < (M.stn i).zeta → Real.tan (o.c.einf i) = J / (Real.pi * (M.stn i).zeta) := by
  rw [runProp_eq M hf, bind_of_ok (set_J_static M _ st hJ (by tauto) hn)] at h
  obtain ⟨e1, e2⟩ := calcForces_atJ h
  have e1 : o.n = n := e1
  refine ⟨e1, ?_, fun i hz => ?_⟩
  · rw [e1]
    rcases h01 with ⟨rfl, hv⟩ | ⟨h1, h2⟩
    · simpa using hv.symm
    · rw [h2]; exact mul_ne_zero (mul_ne_zero h1 hn0) hd
  · rw [e2]
    unfold einfAt
    rw [arctan2_pos _ (mul_pos Real.pi_pos hz), Real.tan_arctan]

/-! ### C63 -/

/-- **C63.** For every propeller, flow and set of coefficients: the axis is a unit vector; the force is the thrust along the
axis plus a force `N` perpendicular to it; the moment is `(position - CG) x force` plus the torque about the axis plus a
couple about the direction of the perpendicular force. -/
theorem C63_moment {M : PropM ι} {fl : PFlow} {n : ℝ} {c : Coefs} {o : PropOut} (h : forcesOf M fl n c = .ok o) :
    nrm M.fwd = 1 ∧ ∃ (N couple : ℝ) (e : V3), dot e M.fwd = 0 ∧
      o.F = o.T • M.fwd + N • e ∧
      o.M = cross (M.geom.position - M.cg) o.F + o.l • M.fwd + couple • e ∧
      dot o.F M.fwd = o.T := by
  have hfw : dot M.fwd M.fwd = 1 := dot_fwd _
  refine ⟨nrm_fwd _, ?_⟩
  have key : ∀ (N nn : ℝ) (e : V3) (T l : ℝ), dot e M.fwd = 0 →
      o = { F := T • M.fwd + N • e
            M := (⟨(T • M.fwd + N • e).z * (M.geom.position.y - M.cg.y) - (T • M.fwd + N • e).y * (M.geom.position.z - M.cg.z),
              (T • M.fwd + N • e).x * (M.geom.position.z - M.cg.z) - (T • M.fwd + N • e).z * (M.geom.position.x - M.cg.x),
              (T • M.fwd + N • e).y * (M.geom.position.x - M.cg.x) - (T • M.fwd + N • e).x * (M.geom.position.y - M.cg.y)⟩ : V3) +
              (M.rot * nn) • e + l • M.fwd, T, l, n, c } →
      ∃ (N couple : ℝ) (e : V3), dot e M.fwd = 0 ∧ o.F = o.T • M.fwd + N • e ∧
      o.M = cross (M.geom.position - M.cg) o.F + o.l • M.fwd + couple • e ∧ dot o.F M.fwd = o.T := by
    intro N nn e T l he ho
    subst ho
    refine ⟨N, M.rot * nn, e, he, rfl, ?_, ?_⟩
    · ext <;> simp <;> ring
    · simp only
      rw [add_dot, smul_dot, smul_dot, hfw, he]
      ring
  unfold forcesOf at h
  simp only [bind, Except.bind] at h
  split_ifs at h with h1 h2
  · simp only [pure, Except.pure, Except.ok.injEq] at h
    exact key 0 0 0 _ _ (by simp) h.symm
  · simp only [pure, Except.pure, Except.ok.injEq] at h
    refine key _ _ _ _ _ ?_ h.symm
    rw [smul_dot]
    have : dot (cross (cross (-fl.u) M.fwd) M.fwd) M.fwd = 0 := by simp [dot]; ring
    rw [this, mul_zero]

/-! ### C61 and C62 -/

theorem propsLoop_ok {aero : Option (AeroDict ι)} {ps : PropDict} {sls sls' : List (PropSlot ι)} {acc acc' : PropAcc}
    {outs : List PropOut} (h : propsLoop simps fuel aero ps sls acc = (.ok (acc', outs), sls')) :
    List.Forall₂ (fun sl o => ∃ s st', localPS ps sl.name = .ok s ∧
      runProp simps fuel sl.model aero s sl.st = (.ok o, st')) sls outs ∧
    acc'.F = acc.F + vsum (outs.map PropOut.F) ∧ acc'.M = acc.M + vsum (outs.map PropOut.M) ∧
    acc'.last = (outs.getLast?.map fun o => (o.T, o.l)).or acc.last ∧
    sls'.map PropSlot.model = sls.map PropSlot.model ∧ sls'.map PropSlot.name = sls.map PropSlot.name ∧
    sls'.map PropSlot.out = outs.map some := by
  induction sls generalizing acc outs sls' with
  | nil =>
    simp only [propsLoop, Prod.mk.injEq, Except.ok.injEq] at h
    obtain ⟨⟨rfl, rfl⟩, rfl⟩ := h
    refine ⟨.nil, ?_, ?_, rfl, rfl, rfl, rfl⟩ <;> simp [vsum]
  | cons sl rest ih =>
    unfold propsLoop at h
    split at h
    · cases h
    · rename_i s hs
      split at h
      · cases h
      · rename_i o st hr
        split at h
        · rename_i acc2 outs2 rest2 hl
          simp only [Prod.mk.injEq, Except.ok.injEq] at h
          obtain ⟨⟨rfl, rfl⟩, rfl⟩ := h
          obtain ⟨i1, i2, i3, i4, i5, i6, i7⟩ := ih hl
          refine ⟨.cons ⟨s, st, hs, hr⟩ i1, ?_, ?_, ?_, ?_, by simp [i6], by simp [i7]⟩
          · rw [i2]; simp [vsum, add_assoc]
          · rw [i3]; simp [vsum, add_assoc]
          · rw [i4]
            rcases outs2 with _ | ⟨a, t⟩
            · simp
            · rw [List.getLast?_cons_cons]
              rcases hq : (a :: t).getLast? with _ | x
              · simp at hq
              · simp
          · simp [i5]
        · cases h

/-- what `PropsSolver._calc_forces` returns -/
theorem propsForces_ok {aero : Option (AeroDict ι)} {ps : PropDict} {sls sls' : List (PropSlot ι)} {tot : PropTotals}
    {outs : List PropOut} (h : propsForces simps fuel aero ps sls = (.ok (tot, outs), sls')) :
    ∃ d u acc, aero = some d ∧ freestream 1 (d.alpha.getD 0) (d.beta.getD 0) = some u ∧
      propsLoop simps fuel aero ps sls {} = (.ok (acc, outs), sls') ∧
      rotateForces u acc.F = .ok (tot.loads.FL, tot.loads.FD, tot.loads.FS) ∧ acc.last = some (tot.thrust, tot.torque) ∧
      (⟨tot.loads.FX, tot.loads.FY, tot.loads.FZ⟩ : V3) = acc.F ∧ (⟨tot.loads.MX, tot.loads.MY, tot.loads.MZ⟩ : V3) = acc.M := by
  unfold propsForces at h
  split at h
  · cases h
  · rename_i acc outs' sls1 hl
    split at h
    · cases h
    · rename_i d
      split at h
      · cases h
      · rename_i u hu
        split at h
        · cases h
        · cases h
        · rename_i L D S T l hr hla
          simp only [Prod.mk.injEq, Except.ok.injEq] at h
          obtain ⟨⟨rfl, rfl⟩, rfl⟩ := h
          exact ⟨d, u, acc, rfl, hu, hl, hr, hla, rfl, rfl⟩

/-- **C61.** If the analysis of all propellers succeeds, each propeller was analysed with its own state: the entry named
after it if there is one, otherwise the dictionary itself; and total force and moment are the sums over the propellers. -/
theorem C61_override {aero : Option (AeroDict ι)} {ps : PropDict} {sls sls' : List (PropSlot ι)} {tot : PropTotals}
    {outs : List PropOut} (h : propsForces simps fuel aero ps sls = (.ok (tot, outs), sls')) :
    List.Forall₂ (fun sl o => ∃ s st', runProp simps fuel sl.model aero s sl.st = (.ok o, st') ∧
      (∀ d, dictGet ps sl.name = some (.dict d) → s = d.map fun kv => (kv.1, .num kv.2)) ∧
      (dictGet ps sl.name = none → s = ps)) sls outs ∧
    (⟨tot.loads.FX, tot.loads.FY, tot.loads.FZ⟩ : V3) = vsum (outs.map PropOut.F) ∧
    (⟨tot.loads.MX, tot.loads.MY, tot.loads.MZ⟩ : V3) = vsum (outs.map PropOut.M) := by
  obtain ⟨d, u, acc, -, -, hl, -, -, hF, hM⟩ := propsForces_ok h
  obtain ⟨i1, i2, i3, -⟩ := propsLoop_ok hl
  refine ⟨?_, ?_, ?_⟩
  · refine i1.imp ?_
    rintro sl o ⟨s, st', h1, h2⟩
    refine ⟨s, st', h2, fun d hd => ?_, fun hd => ?_⟩
    · unfold localPS at h1
      split_ifs at h1 with h0
      · subst h0; simp [dictGet] at hd
      · rw [hd] at h1
        simpa using h1.symm
    · unfold localPS at h1
      split_ifs at h1 with h0
      · simp only [Except.ok.injEq] at h1
        rw [h0, h1]
      · rw [hd] at h1
        simpa using h1.symm
  · rw [hF, i2]; simp
  · rw [hM, i3]; simp

/-- **C62 fails.** The `Thrust` and `Torque` reported for the plane are those of the last propeller; so they are not the
totals whenever the other propellers do not add up to zero. -/
theorem C62_refuted {aero : Option (AeroDict ι)} {ps : PropDict} {sls sls' : List (PropSlot ι)} {tot : PropTotals}
    {outs : List PropOut} {o : PropOut} (h : propsForces simps fuel aero ps sls = (.ok (tot, outs ++ [o]), sls')) :
    tot.thrust = o.T ∧ tot.torque = o.l ∧
    ((outs.map PropOut.T).sum ≠ 0 → tot.thrust ≠ ((outs ++ [o]).map PropOut.T).sum) ∧
    ((outs.map PropOut.l).sum ≠ 0 → tot.torque ≠ ((outs ++ [o]).map PropOut.l).sum) := by
  obtain ⟨d, u, acc, -, -, hl, -, hla, -, -⟩ := propsForces_ok h
  obtain ⟨-, -, -, i4, -⟩ := propsLoop_ok hl
  rw [hla] at i4
  simp only [List.getLast?_concat, Option.map_some, Option.some_or, Option.some.injEq, Prod.mk.injEq] at i4
  refine ⟨i4.1, i4.2, fun hs => ?_, fun hs => ?_⟩
  · rw [i4.1, List.map_append, List.sum_append]
    simpa using hs
  · rw [i4.2, List.map_append, List.sum_append]
    simpa using hs

/-- **C62, the part that holds.** For a plane with one propeller `Thrust` and `Torque` are the totals. -/
theorem C62_single_partial {aero : Option (AeroDict ι)} {ps : PropDict} {sl : PropSlot ι} {sls' : List (PropSlot ι)}
    {tot : PropTotals} {outs : List PropOut} (h : propsForces simps fuel aero ps [sl] = (.ok (tot, outs), sls')) :
    tot.thrust = (outs.map PropOut.T).sum ∧ tot.torque = (outs.map PropOut.l).sum := by
  obtain ⟨d, u, acc, -, -, hl, -, hla, -, -⟩ := propsForces_ok h
  obtain ⟨i1, -, -, i4, -⟩ := propsLoop_ok hl
  rcases i1 with _ | ⟨-, _ | _⟩
  rw [hla] at i4
  simp only [List.getLast?_singleton, Option.map_some, Option.some_or, Option.some.injEq, Prod.mk.injEq] at i4
  simp [i4.1, i4.2]

/-! ### The hypotheses are met -/

/-- C60: a dictionary with two keys, and the flow at V = 10 -/
example : Has [("J", .num 0.5), ("brake_power", .num 3)] "J" 0.5 ∧ Lacks [("brake_power", .num 3)] "J" ∧
    propFlow (some { Vmag := some 10, rho := some 0.002 } : Option (AeroDict ℕ)) = .ok ⟨0.002, 10, ⟨-1, 0, 0⟩⟩ :=
  ⟨by simp [Has, dictGet], by simp [Lacks, dictGet], demo_flow _ _⟩

/-- C59: an analysis of the example propeller by rotation rate -/
example : ∃ (M : PropM ℕ) (mem : ℕ → ℕ → Option ℝ), mkPropM (fun _ _ => 0) demoProp 0 none none = .ok M ∧
    (Lacks [("rot_per_sec", .num 10)] "J" ∧ Has [("rot_per_sec", .num 10)] "rot_per_sec" 10) ∧
    ∃ o st1, runProp (fun _ _ => 1) 1 M (some { Vmag := some 10, rho := some 0.002 }) [("rot_per_sec", .num 10)] { mem } = (.ok o, st1) ∧
      o.n = 10 := by
  obtain ⟨M, hM, -, hd, -⟩ := demo_ok (ι := ℕ) (fun _ _ => 0) 0 none none
  have hl : Lacks [("rot_per_sec", .num 10)] "J" := by simp [Lacks, dictGet]
  obtain ⟨mem, h⟩ := demo_run hM 10 0.002 (J := 10 / (10 * M.d)) (by rw [hd]; norm_num) (by rw [hd]; norm_num) (fun _ => 1) 10 0 _
    (fun s => (set_rot M 10 s hl (has_singleton _ _)).trans (if_neg (by rw [hd]; norm_num))) 15
  obtain ⟨o, st', r1, n1, -⟩ := h (fun _ _ => 1) 0
  exact ⟨M, mem, hM, ⟨hl, has_singleton _ _⟩, o, st', r1, n1⟩

/-- C59 refuted: a static analysis with `J = 0.5` and 10 revolutions per second succeeds -/
example : ∃ (M : PropM ℕ) (mem : ℕ → ℕ → Option ℝ), mkPropM (fun _ _ => 0) demoProp 0 none none = .ok M ∧ M.d ≠ 0 ∧
    ∃ o st1, runProp (fun _ _ => 1) 1 M (some { Vmag := some 0, rho := some 0.002 }) [("J", .num 0.5), ("rot_per_sec", .num 10)] { mem } =
      (.ok o, st1) := by
  obtain ⟨M, hM, -, hd, -⟩ := demo_ok (ι := ℕ) (fun _ _ => 0) 0 none none
  obtain ⟨mem, h⟩ := demo_run hM 0 0.002 (J := 0.5) (by norm_num) (by norm_num) (fun _ => 1) 10 0
    [("J", .num 0.5), ("rot_per_sec", .num 10)]
    (fun s => set_J_static M 0 s (by simp [Has, dictGet]) (.inr rfl) (by simp [Has, dictGet])) 15
  obtain ⟨o, st', r1, -⟩ := h (fun _ _ => 1) 0
  exact ⟨M, mem, hM, by rw [hd]; norm_num, o, st', r1⟩

theorem demo_rotate (F : V3) : ∃ r, rotateForces ⟨-1, 0, 0⟩ F = .ok r := by
  have h1 : normalise (cross (⟨-1, 0, 0⟩ : V3) ⟨0, 1, 0⟩) = some ⟨0, 0, -1⟩ := by
    unfold normalise
    have : nrm (cross (⟨-1, 0, 0⟩ : V3) ⟨0, 1, 0⟩) = 1 := by simp [nrm, dot]
    rw [this]
    simp only [one_ne_zero, if_false, Option.some.injEq]
    ext <;> simp [unit, this]
  have h2 : normalise (cross (⟨0, 0, -1⟩ : V3) ⟨-1, 0, 0⟩) = some ⟨0, 1, 0⟩ := by
    unfold normalise
    have : nrm (cross (⟨0, 0, -1⟩ : V3) ⟨-1, 0, 0⟩) = 1 := by simp [nrm, dot]
    rw [this]
    simp only [one_ne_zero, if_false, Option.some.injEq]
    ext <;> simp [unit, this]
  unfold rotateForces
  simp only [h1, h2, bind, Except.bind, pure, Except.pure]
  exact ⟨_, rfl⟩

/-- C61, C62: two propellers, the second with a state of its own; the first has thrust -/
example : ∃ (M : PropM ℕ) (m1 m2 : ℕ → ℕ → Option ℝ) (tot : PropTotals) (o1 o2 : PropOut) (sls : List (PropSlot ℕ)),
    mkPropM (fun _ _ => 0) demoProp 0 none none = .ok M ∧
    propsForces (fun _ _ => 1) 1 (some { Vmag := some 10, rho := some 0.002 })
      [("J", .num 0.5), ("right", .dict [("J", 0.25)])] [⟨"left", M, { mem := m1 }, none⟩, ⟨"right", M, { mem := m2 }, none⟩] =
      (.ok (tot, [o1] ++ [o2]), sls) ∧ ([o1].map PropOut.T).sum ≠ 0 := by
  obtain ⟨M, hM, -, hd, -⟩ := demo_ok (ι := ℕ) (fun _ _ => 0) 0 none none
  obtain ⟨m1, h1⟩ := demo_run hM 10 0.002 (J := 0.5) (by norm_num) (by norm_num) (fun _ => 1) _ 0
    [("J", .num 0.5), ("right", .dict [("J", 0.25)])]
    (fun s => set_J M 10 s (by simp [Has, dictGet]) (by norm_num) (by norm_num)) 15
  obtain ⟨m2, h2⟩ := demo_run hM 10 0.002 (J := 0.25) (by norm_num) (by norm_num) (fun _ => 1) _ 0 _
    (fun s => set_J M 10 s (has_singleton _ _) (by norm_num) (by norm_num)) 15
  obtain ⟨o1, s1, r1, n1, -, C1, T1, -⟩ := h1 (fun _ _ => 1) 0
  obtain ⟨o2, s2, r2, -⟩ := h2 (fun _ _ => 1) 0
  have l1 : localPS [("J", .num 0.5), ("right", .dict [("J", 0.25)])] "left" =
      .ok [("J", .num 0.5), ("right", .dict [("J", 0.25)])] := by
    unfold localPS
    rw [if_neg (by simp)]
    simp [dictGet]
  have l2 : localPS [("J", .num 0.5), ("right", .dict [("J", 0.25)])] "right" = .ok [("J", .num 0.25)] := by
    unfold localPS
    rw [if_neg (by simp)]
    simp [dictGet]
  obtain ⟨⟨rL, rD, rS⟩, hr⟩ := demo_rotate (0 + o1.F + o2.F)
  have hl : propsLoop (fun _ _ => 1) 1 (some { Vmag := some 10, rho := some 0.002 })
      [("J", .num 0.5), ("right", .dict [("J", 0.25)])] [⟨"left", M, { mem := m1 }, none⟩, ⟨"right", M, { mem := m2 }, none⟩] {} =
      (.ok ({ F := 0 + o1.F + o2.F, M := 0 + o1.M + o2.M, last := some (o2.T, o2.l) }, [o1, o2]), [⟨"left", M, s1, some o1⟩, ⟨"right", M, s2, some o2⟩]) := by
    simp only [propsLoop, l1, l2, r1, r2]
  have hf : ∃ tot, propsForces (fun _ _ => 1) 1 (some { Vmag := some 10, rho := some 0.002 })
      [("J", .num 0.5), ("right", .dict [("J", 0.25)])] [⟨"left", M, { mem := m1 }, none⟩, ⟨"right", M, { mem := m2 }, none⟩] =
      (.ok (tot, [o1] ++ [o2]), [⟨"left", M, s1, some o1⟩, ⟨"right", M, s2, some o2⟩]) := by
    unfold propsForces
    simp only [hl, Option.getD_none, freestream_zero, hr]
    exact ⟨_, rfl⟩
  obtain ⟨tot, hf⟩ := hf
  refine ⟨M, m1, m2, tot, o1, o2, _, hM, hf, ?_⟩
  · simp only [List.map_cons, List.map_nil, List.sum_cons, List.sum_nil, add_zero]
    rw [T1, C1]
    unfold overBlade
    rw [hd]
    have := Real.pi_pos
    positivity

end Verif
