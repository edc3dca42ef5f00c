import Verif.Thm.PropState

/-!
# What a power setting determines (C86, C91)
-/

namespace Verif
open V3 Act

variable {ι : Type} {simps : List ℝ → List ℝ → ℝ} {fuel : ℕ}

/-! ### C86 -/

/-- **C86, the part that holds.** An analysis with a state given by `J` or `rot_per_sec`, or by default, does not depend on the
rotation rate left by earlier analyses: outcome and induced angles are the same whatever it was. -/
theorem C86_rate_partial (M : PropM ι) (aero : Option (AeroDict ι)) {s : PropDict}
    (hs : s = [] ∨ (∃ J, Has s "J" J) ∨ ∃ n, Has s "rot_per_sec" n) (st : PropSt) (a b : ℝ) :
    (runProp simps fuel M aero s { st with rps := a }).1 = (runProp simps fuel M aero s { st with rps := b }).1 ∧
    (runProp simps fuel M aero s { st with rps := a }).2.ei = (runProp simps fuel M aero s { st with rps := b }).2.ei := by
  rcases hf : propFlow aero with e | fl
  · unfold runProp
    rw [hf]
    exact ⟨rfl, rfl⟩
  have key : setPropDict M fl.V s { st with rps := a } = setPropDict M fl.V s { st with rps := b } ∨
      ∃ e, setPropDict M fl.V s { st with rps := a } = (.error e, { st with rps := a }) ∧
        setPropDict M fl.V s { st with rps := b } = (.error e, { st with rps := b }) := by
    rcases hs with rfl | ⟨J, hJ⟩ | ⟨n, hn⟩
    · rw [set_empty, set_empty]; exact .inl rfl
    · by_cases h0 : J = 0 ∨ fl.V = 0
      · unfold setPropDict
        rw [if_neg hJ.ne, if_pos hJ.isSome, hJ.real, lift_ok_bind, lift_ok_bind, if_pos h0]
        by_cases hr : (dictGet s "rot_per_sec").isSome = true
        · rw [if_pos hr]
          rcases hp : psReal s "rot_per_sec" with e | n
          · exact .inr ⟨e, rfl, rfl⟩
          · exact .inl rfl
        · rw [if_neg hr]; exact .inr ⟨_, rfl, rfl⟩
      · push Not at h0
        rw [set_J M _ _ hJ h0.1 h0.2, set_J M _ _ hJ h0.1 h0.2]; exact .inl rfl
    · rcases hj : dictGet s "J" with _ | v
      · rw [set_rot M _ _ hj hn, set_rot M _ _ hj hn]; exact .inl rfl
      · unfold setPropDict
        rw [if_neg hn.ne, if_pos (by rw [hj]; rfl)]
        rcases hp : psReal s "J" with e | J
        · exact .inr ⟨e, rfl, rfl⟩
        · rw [lift_ok_bind, lift_ok_bind, if_pos hn.isSome, hn.real]
          left
          split_ifs <;> rfl
  rw [runProp_eq M hf, runProp_eq M hf]
  rcases key with h | ⟨e, h1, h2⟩
  · rw [bind_def, bind_def, h]; exact ⟨rfl, rfl⟩
  · rw [bind_of_error h1, bind_of_error h2]; exact ⟨rfl, rfl⟩

/-- a propeller whose stored rotation rate is zero cannot find the rate for a power or a throttle setting -/
theorem power_from_rest (M : PropM ι) {aero : Option (AeroDict ι)} {fl : PFlow} (hf : propFlow aero = .ok fl)
    {st : PropSt} (h0 : st.rps = 0) (P : ℝ) :
    (runProp simps fuel M aero [("brake_power", .num P)] st).1 = .error .nonfinite := by
  rw [runProp_eq M hf, bind_of_ok (set_power M _ st (by simp [Lacks, dictGet]) (by simp [Lacks, dictGet]) (has_singleton _ _))]
  have h1 : ∀ s : PropSt, coefsAtRate M simps fuel fl.V 0 s = (.error .nonfinite, { s with rps := 0 }) := by
    intro s
    unfold coefsAtRate
    rw [change_bind]
    refine bind_of_error ?_ _
    unfold Act.finite
    rw [if_neg (by simp)]
    rfl
  have h2 : findRate (powerDiff M simps fuel fl P) fuel st = (.error .nonfinite, { st with rps := 0 }) := by
    unfold findRate
    rw [get_bind, h0]
    refine bind_of_error ?_ _
    unfold powerDiff
    exact bind_of_error (h1 st) _
  have h3 : driveCoefs M simps fuel fl (.power P) st = (.error .nonfinite, { st with rps := 0 }) := by
    unfold driveCoefs
    exact bind_of_error h2 _
  unfold calcForces
  rw [bind_of_error h3]

/-- **C86 fails: a rejected state has an effect.** For every propeller (of non-zero diameter), flow and history: the state
`{"rot_per_sec": 0}` is rejected with `ZeroDivisionError`, and the next analysis with a brake power fails, whatever the power. -/
theorem C86_rejected_refuted (M : PropM ι) {aero aero' : Option (AeroDict ι)} {fl fl' : PFlow} (hf : propFlow aero = .ok fl)
    (hf' : propFlow aero' = .ok fl') (st : PropSt) (P : ℝ) :
    (runProp simps fuel M aero [("rot_per_sec", .num 0)] st).1 = .error .zeroDiv ∧
    (runProp simps fuel M aero' [("brake_power", .num P)]
      (runProp simps fuel M aero [("rot_per_sec", .num 0)] st).2).1 = .error .nonfinite := by
  have h : runProp simps fuel M aero [("rot_per_sec", .num 0)] st = (.error .zeroDiv, { st with rps := 0 }) := by
    rw [runProp_eq M hf]
    refine bind_of_error ?_ _
    rw [set_rot M _ st (by simp [Lacks, dictGet]) (has_singleton _ _), if_pos (by simp)]
  rw [h]
  exact ⟨rfl, power_from_rest M hf' rfl P⟩

/-- **C86 fails: the power does not determine the operating point.** For the example propeller, every density and every airspeed from 0
to 30 there are memory contents and a brake power such that a new propeller is analysed successfully, with the rotation rate 15,
while the same call fails after `solve` was called with airspeed 0 and no propeller state, which itself succeeds. -/
theorem C86_refuted {table : String → ℝ → ℝ} {cg : V3} {units : Option String} {pts : Option (ι → V3)} {M : PropM ι}
    (hM : mkPropM table demoProp cg units pts = .ok M) (V rho : ℝ) (hV : 0 ≤ V) (hV1 : V < 30) (simps : List ℝ → List ℝ → ℝ) (fuel : ℕ) :
    ∃ mem mem' P,
      (∃ o st', runProp simps (fuel + 1) M (some { Vmag := some V, rho := some rho }) [("brake_power", .num P)] { mem } = (.ok o, st') ∧
        o.n = 15 ∧ o.c.CP * (rho * 15 ^ 3 * M.d ^ 5) = P) ∧
      ∃ o st', runProp simps (fuel + 1) M (some { Vmag := some 0, rho := some rho }) [] { mem := mem' } = (.ok o, st') ∧
        ∀ P, (runProp simps (fuel + 1) M (some { Vmag := some V, rho := some rho }) [("brake_power", .num P)] st').1 =
          .error .nonfinite := by
  have hgeom : M.geom = demoProp := (mkPropM_ok hM).2.2.1
  have hn : M.nodes = 2 := by unfold PropM.nodes; rw [hgeom]; rfl
  have hd : M.d = 2 := by unfold PropM.d; rw [hgeom]; rfl
  have hJ : V / (15 * M.d) < 1 := by rw [hd]; linarith
  obtain ⟨mem, hmem⟩ := first_solve (demo_mild hM (by rw [hd]; positivity) (hJ.le.trans (by norm_num))) (fun _ => 1)
    (st := { mem := fun _ _ => none }) (fun _ _ => rfl)
  obtain ⟨c, st', h1, h2, -, -⟩ := hmem simps fuel
  obtain ⟨mem', hmem'⟩ := demo_run hM 0 rho (J := 0.5) (by norm_num) (by norm_num) (fun _ => 1) 0 0 []
    (fun st => by rw [set_empty]; simp) 15
  obtain ⟨o', st'', r1, r2, -⟩ := hmem' simps fuel
  refine ⟨mem, mem', rho * 15 ^ 3 * M.d ^ 5 * c.CP, ?_, o', st'', r1, fun P => ?_⟩
  · set P := rho * 15 ^ 3 * M.d ^ 5 * c.CP with hP
    have k1 : powerDiff M simps (fuel + 1) ⟨rho, V, ⟨-1, 0, 0⟩⟩ P 15 { mem } = (.ok (0, c), st') := by
      unfold powerDiff coefsAtRate
      rw [bind_of_ok (s1 := st') (a := c) (by
        rw [change_bind, bind_of_ok (finite_of (by rw [hd]; norm_num) _)]
        exact h1)]
      simp [hP]
    have k2 : driveCoefs M simps (fuel + 1) ⟨rho, V, ⟨-1, 0, 0⟩⟩ (.power P) { mem } = (.ok c, { st' with rps := 15 }) := by
      have k3 : findRate (powerDiff M simps (fuel + 1) ⟨rho, V, ⟨-1, 0, 0⟩⟩ P) (fuel + 1) { mem } = (.ok (15, c), st') := by
        unfold findRate
        rw [get_bind, bind_of_ok k1]
        simp only
        rw [if_pos (by norm_num)]
        rfl
      unfold driveCoefs
      refine (bind_of_ok k3 _).trans ?_
      simp only
      rw [change_bind, bind_of_ok (finite_of (by rw [hd]; norm_num) _)]
      rfl
    have hf : ∃ o, forcesOf M ⟨rho, V, ⟨-1, 0, 0⟩⟩ 15 c = .ok o := by
      unfold forcesOf
      simp only [demo_angle hgeom, if_true, bind, Except.bind, pure, Except.pure]
      exact ⟨_, rfl⟩
    obtain ⟨o, ho⟩ := hf
    obtain ⟨e1, e2⟩ := forcesOf_out ho
    refine ⟨o, { st' with rps := 15 }, ?_, e1, by rw [e2, hP]; ring⟩
    rw [runProp_eq M (demo_flow V rho), bind_of_ok (set_power M _ _ (by simp [Lacks, dictGet]) (by simp [Lacks, dictGet])
      (has_singleton _ _))]
    unfold calcForces
    rw [bind_of_ok k2, if_neg (by omega), get_bind]
    exact lift_eq_ok.2 ⟨ho, rfl⟩
  · refine power_from_rest M (demo_flow V rho) ?_ P
    rw [runProp_eq M (demo_flow 0 rho)] at r1
    obtain ⟨dr, s1, q1, q2⟩ := bind_ok.1 r1
    obtain ⟨c', q3, q4⟩ := calcForces_ok q2
    rw [← (forcesOf_out q4).1, r2]

/-- the propeller of the theorem exists -/
example : ∃ M : PropM ℕ, mkPropM (fun _ _ => 0) demoProp 0 none none = .ok M :=
  (demo_ok (ι := ℕ) (fun _ _ => 0) 0 none none).imp fun _ h => h.1

/-! ### C91 -/

/-- what the secant iteration returns -/
theorem rateLoop_ok {f : ℝ → Act PropSt (ℝ × Coefs)} {fuel : ℕ} {x0 x1 y0 y1 : ℝ} {c1 : Coefs} {st st' : PropSt} {n : ℝ} {c : Coefs}
    (h : rateLoop f fuel x0 x1 y0 y1 c1 st = (.ok (n, c), st')) (h1 : ∃ s s', f x1 s = (.ok (y1, c1), s'))
    (h0 : ∃ c0 s s', f x0 s = (.ok (y0, c0), s')) :
    ∃ a b ya yb ca s1 s1' s2 s2', f a s1 = (.ok (ya, ca), s1') ∧ f b s2 = (.ok (yb, c), s2') ∧ |n - b| < 1e-14 ∧
      |yb| * |b - a| < 1e-14 * |yb - ya| := by
  induction fuel generalizing x0 x1 y0 y1 c1 st with
  | zero => unfold rateLoop at h; simp at h
  | succ fuel ih =>
    unfold rateLoop at h
    simp only at h
    obtain ⟨_, s1, g1, h2⟩ := bind_ok.1 h
    clear h
    have hne := (finite_eq_ok.1 g1).1
    split_ifs at h2 with hs
    · simp only [pure_run, Prod.mk.injEq, Except.ok.injEq] at h2
      obtain ⟨⟨rfl, rfl⟩, rfl⟩ := h2
      obtain ⟨s, s', h1⟩ := h1
      obtain ⟨c0, s2, s2', h0⟩ := h0
      refine ⟨x0, x1, y0, y1, c0, s2, s2', s, s', h0, h1, hs, ?_⟩
      have e : x1 - y1 * (x1 - x0) / (y1 - y0) - x1 = -(y1 * (x1 - x0) / (y1 - y0)) := by ring
      rw [e, abs_neg, abs_div, abs_mul, div_lt_iff₀ (abs_pos.2 hne)] at hs
      exact hs
    · obtain ⟨⟨y, c2⟩, s2, g2, h3⟩ := bind_ok.1 h2
      obtain ⟨s, s', h1⟩ := h1
      exact ih h3 ⟨_, _, g2⟩ ⟨_, _, _, h1⟩

/-- what the search for the rotation rate returns -/
theorem findRate_ok {f : ℝ → Act PropSt (ℝ × Coefs)} {fuel : ℕ} {st st' : PropSt} {n : ℝ} {c : Coefs}
    (h : findRate f fuel st = (.ok (n, c), st')) :
    (∃ y s s', f n s = (.ok (y, c), s') ∧ |y| < 1e-14) ∨
    ∃ a b ya yb ca s1 s1' s2 s2', f a s1 = (.ok (ya, ca), s1') ∧ f b s2 = (.ok (yb, c), s2') ∧ |n - b| < 1e-14 ∧
      |yb| * |b - a| < 1e-14 * |yb - ya| := by
  unfold findRate at h
  rw [get_bind] at h
  obtain ⟨⟨y0, c0⟩, s1, g1, h⟩ := bind_ok.1 h
  simp only at h
  split_ifs at h with hs
  · simp only [pure_run, Prod.mk.injEq, Except.ok.injEq] at h
    obtain ⟨⟨rfl, rfl⟩, rfl⟩ := h
    exact .inl ⟨_, _, _, g1, hs⟩
  · obtain ⟨⟨y1, c1⟩, s2, g2, h⟩ := bind_ok.1 h
    exact .inr (rateLoop_ok h ⟨_, _, g2⟩ ⟨_, _, _, g1⟩)

theorem coefsAtRate_ok {M : PropM ι} {V n : ℝ} {c : Coefs} {st st' : PropSt} (h : coefsAtRate M simps fuel V n st = (.ok c, st')) :
    SolvesRate.AtRate M simps fuel V n c := by
  unfold coefsAtRate at h
  rw [change_bind] at h
  obtain ⟨_, s1, h1, h2⟩ := bind_ok.1 h
  exact ⟨(finite_eq_ok.1 h1).1, _, _, h2⟩

theorem solvesRate_of {M : PropM ι} {V : ℝ} {R : ℝ → Coefs → ℝ} {f : ℝ → Act PropSt (ℝ × Coefs)}
    (hf : ∀ x y c s s', f x s = (.ok (y, c), s') → y = R x c ∧ SolvesRate.AtRate M simps fuel V x c) {fuel' : ℕ} {st st' : PropSt}
    {n : ℝ} {c : Coefs} (h : findRate f fuel' st = (.ok (n, c), st')) : SolvesRate M simps fuel V R n c := by
  rcases findRate_ok h with ⟨y, s, s', h1, h2⟩ | ⟨a, b, ya, yb, ca, s1, s1', s2, s2', h1, h2, h3, h4⟩
  · obtain ⟨rfl, h3⟩ := hf _ _ _ _ _ h1
    exact ⟨n, h3, .inl ⟨rfl, h2⟩⟩
  · obtain ⟨rfl, h5⟩ := hf _ _ _ _ _ h1
    obtain ⟨rfl, h6⟩ := hf _ _ _ _ _ h2
    exact ⟨b, h6, .inr ⟨h3, a, ca, h5, h4⟩⟩

/-- **C91.** A propeller analysed at a given brake power absorbs that power, as well as the stopping rule asks: the returned
rotation rate (which is not zero) and coefficients solve `rho n³ d⁵ CP = P`.  With a throttle setting they solve
`rho n² d⁵ Cl = ` torque of the motor. -/
theorem C91_balance {M : PropM ι} {aero : Option (AeroDict ι)} {fl : PFlow} (hf : propFlow aero = .ok fl) {s : PropDict}
    {st st' : PropSt} {o : PropOut} (hJ : Lacks s "J") (hn : Lacks s "rot_per_sec")
    (h : runProp simps fuel M aero s st = (.ok o, st')) :
    (∀ P, Has s "brake_power" P → o.n ≠ 0 ∧
      SolvesRate M simps fuel fl.V (fun n c => fl.rho * n ^ 3 * M.d ^ 5 * c.CP - P) o.n o.c) ∧
    (∀ thr, Lacks s "brake_power" → Has s "electric_throttle" thr → o.n ≠ 0 ∧ ∃ m, M.motor = some m ∧
      SolvesRate M simps fuel fl.V (fun n c => fl.rho * n ^ 2 * M.d ^ 5 * c.Cl -
        (motorTorque M.units m thr n).toOption.getD 0) o.n o.c) := by
  rw [runProp_eq M hf] at h
  obtain ⟨dr, s1, h1, h2⟩ := bind_ok.1 h
  obtain ⟨c, h3, h4⟩ := calcForces_ok h2
  obtain ⟨e1, e2⟩ := forcesOf_out h4
  refine ⟨fun P hP => ?_, fun thr hP ht => ?_⟩
  · rw [set_power M _ st hJ hn hP] at h1
    cases h1
    unfold driveCoefs at h3
    obtain ⟨⟨n, c'⟩, s2, h5, h6⟩ := bind_ok.1 h3
    simp only [change_bind] at h6
    obtain ⟨_, s3, h7, h8⟩ := bind_ok.1 h6
    obtain ⟨h9, rfl⟩ := finite_eq_ok.1 h7
    simp only [pure_run, Prod.mk.injEq, Except.ok.injEq] at h8
    obtain ⟨rfl, rfl⟩ := h8
    rw [e1, e2]
    refine ⟨left_ne_zero_of_mul h9, solvesRate_of (fun x y c s s' hx => ?_) h5⟩
    unfold powerDiff at hx
    obtain ⟨c2, s4, g1, g2⟩ := bind_ok.1 hx
    simp only [pure_run, Prod.mk.injEq, Except.ok.injEq] at g2
    obtain ⟨⟨rfl, rfl⟩, rfl⟩ := g2
    exact ⟨rfl, coefsAtRate_ok g1⟩
  · rw [set_motor M _ st hJ hn hP ht] at h1
    cases h1
    unfold driveCoefs at h3
    rcases hm : M.motor with _ | m
    · simp only [hm] at h3; simp at h3
    simp only [hm] at h3
    obtain ⟨⟨n, c'⟩, s2, h5, h6⟩ := bind_ok.1 h3
    simp only [change_bind] at h6
    obtain ⟨_, s3, h7, h8⟩ := bind_ok.1 h6
    obtain ⟨h9, rfl⟩ := finite_eq_ok.1 h7
    simp only [pure_run, Prod.mk.injEq, Except.ok.injEq] at h8
    obtain ⟨rfl, rfl⟩ := h8
    rw [e1, e2]
    refine ⟨left_ne_zero_of_mul h9, m, rfl, solvesRate_of (fun x y c s s' hx => ?_) h5⟩
    unfold torqueDiff at hx
    obtain ⟨c2, s4, g1, g2⟩ := bind_ok.1 hx
    obtain ⟨Tq, s5, g3, g4⟩ := bind_ok.1 g2
    obtain ⟨g5, rfl⟩ := lift_eq_ok.1 g3
    simp only [pure_run, Prod.mk.injEq, Except.ok.injEq] at g4
    obtain ⟨⟨rfl, rfl⟩, rfl⟩ := g4
    refine ⟨?_, coefsAtRate_ok g1⟩
    simp only [g5]
    rfl

/-- a successful analysis at a given power -/
example : ∃ (M : PropM ℕ) (P : ℝ) (simps : List ℝ → List ℝ → ℝ) (st : PropSt) (o : PropOut) (st' : PropSt),
    runProp simps 1 M (some { Vmag := some 10, rho := some 0.002 }) [("brake_power", .num P)] st = (.ok o, st') := by
  obtain ⟨M, hM, -⟩ := demo_ok (ι := ℕ) (fun _ _ => 0) 0 none none
  obtain ⟨mem, -, P, ⟨o, st', h, -⟩, -⟩ := C86_refuted hM 10 0.002 (by norm_num) (by norm_num) (fun _ _ => 1) 0
  exact ⟨M, P, _, _, o, st', h⟩

end Verif
