import Verif.Examples.Prop
import Verif.Spec.Prop

/-!
# Blade sections: pitch, lift, drag and motor (C65, C67, C70, C71)
-/

namespace Verif
open V3

/-! ### C70 -/

theorem aeroPitch_eq {zeta Kc aL0 : ℝ} (hz : 0 < zeta) (ha : Real.cos aL0 ≠ 0)
    (h1 : -(Real.pi / 2) < Real.arctan (Kc / (Real.pi * zeta)) - aL0)
    (h2 : Real.arctan (Kc / (Real.pi * zeta)) - aL0 < Real.pi / 2) :
    aeroPitch zeta Kc aL0 = some (Real.arctan (Kc / (Real.pi * zeta)) - aL0) := by
  have hz' : 0 < Real.pi * zeta := mul_pos Real.pi_pos hz
  set th := Real.arctan (Kc / (Real.pi * zeta)) with hth
  have ht : Real.tan th = Kc / (Real.pi * zeta) := Real.tan_arctan _
  have hct : Real.cos th ≠ 0 := (Real.cos_arctan_pos _).ne'
  have hc : Real.cos (th - aL0) ≠ 0 := (Real.cos_pos_of_mem_Ioo ⟨h1, h2⟩).ne'
  have hd := tan_denom hc hct ha
  have hd' : Real.pi * zeta + Kc * Real.tan aL0 ≠ 0 := by
    intro h
    apply hd
    rw [ht]
    field_simp
    linarith
  unfold aeroPitch
  simp only
  rw [if_neg (by push Not; exact ⟨ha, hd'⟩), arctan2_pos _ hz', ← arctan_tan_sub h1 h2 hct ha, ht]
  congr 2
  field_simp

theorem filePitch_eq {r dg aL0 : ℝ} (hr : r ≠ 0) (ha : Real.cos aL0 ≠ 0) (ht : Real.cos (rad dg) ≠ 0)
    (h1 : -(Real.pi / 2) < rad dg - aL0) (h2 : rad dg - aL0 < Real.pi / 2) :
    filePitch r dg aL0 = some (rad dg - aL0) := by
  have hc : Real.cos (rad dg - aL0) ≠ 0 := (Real.cos_pos_of_mem_Ioo ⟨h1, h2⟩).ne'
  have hd := tan_denom hc ht ha
  have hr' : 2 * Real.pi * r ≠ 0 := mul_ne_zero (mul_ne_zero two_ne_zero Real.pi_ne_zero) hr
  have hd' : 2 * Real.pi * r + 2 * Real.pi * r * Real.tan (rad dg) * Real.tan aL0 ≠ 0 := by
    intro h
    apply hd
    have : 2 * Real.pi * r * (1 + Real.tan (rad dg) * Real.tan aL0) = 0 := by linarith
    rcases mul_eq_zero.1 this with h | h
    · exact absurd h hr'
    · exact h
  unfold filePitch
  simp only
  rw [if_neg (by push Not; exact ⟨ha, ht, hd', hr'⟩), ← arctan_tan_sub h1 h2 ht ha]
  congr 2
  rw [div_div, div_eq_div_iff (mul_ne_zero hd' hr') hd]
  ring

/-- **C70.** For every propeller that can be constructed and every node: if the chord-line pitch angle `theta` asked for at
that radius minus the zero-lift angle of the section is in the principal range, the aerodynamic pitch angle is exactly that
difference (plus the pitch increment). -/
theorem C70_aero_pitch {ι : Type} {table : String → ℝ → ℝ} {q : PropGeom} {cg : V3} {units : Option String}
    {pts : Option (ι → V3)} {M : PropM ι} (h : mkPropM table q cg units pts = .ok M) {i : ℕ} (hi : i < q.nodes)
    {theta : ℝ} (hth : ChordPitch table q (zetaAt q i) (M.stn i).r theta) (hz : 0 < zetaAt q i)
    (ha : Real.cos (M.stn i).af.aL0 ≠ 0) (ht : Real.cos theta ≠ 0)
    (h1 : -(Real.pi / 2) < theta - (M.stn i).af.aL0) (h2 : theta - (M.stn i).af.aL0 < Real.pi / 2) :
    (M.stn i).beta = theta - (M.stn i).af.aL0 + rad (q.pitch.increment.getD 0) := by
  obtain ⟨hd, -, -, -, -, -, -, af, -, hst⟩ := mkPropM_ok h
  obtain ⟨beta, cb, hp, -, hs⟩ := hst i hi
  unfold mkStn at hs
  simp only at hs
  split_ifs at hs with hfin
  simp only [Option.some.injEq] at hs
  rw [← hs] at hth ha h1 h2 ⊢
  simp only at hth ha h1 h2 ⊢
  have hr : zetaAt q i * q.diameter * 0.5 ≠ 0 := hfin.1
  have hz0 := hz.ne'
  have key : ∀ Kc, theta = Real.arctan (Kc * q.diameter / (2 * Real.pi * (zetaAt q i * q.diameter * 0.5))) →
      theta = Real.arctan (Kc / (Real.pi * zetaAt q i)) := by
    intro Kc hK
    rw [hK]
    congr 1
    rw [div_eq_div_iff (by positivity) (by positivity)]
    ring
  unfold bladePitch at hp
  rcases hth with ⟨hty, hth⟩ | ⟨k, hty, hv, hth⟩ | ⟨p, hty, hv, hth⟩ | ⟨f, hty, hv, hth⟩
  · rw [hty] at hp
    have := key _ hth
    rw [this] at h1 h2 ⊢
    rw [aeroPitch_eq hz ha h1 h2] at hp
    simpa [pure, Except.pure] using hp.symm
  · rw [hty, hv] at hp
    have := key _ hth
    rw [this] at h1 h2 ⊢
    simp only [getKey, bind, Except.bind] at hp
    rw [aeroPitch_eq hz ha h1 h2] at hp
    simpa [pure, Except.pure] using hp.symm
  · rw [hty, hv] at hp
    have := key (p / q.diameter) (by rw [hth, div_mul_cancel₀ _ hd])
    rw [this] at h1 h2 ⊢
    simp only [getKey, bind, Except.bind] at hp
    rw [aeroPitch_eq hz ha h1 h2] at hp
    simpa [pure, Except.pure] using hp.symm
  · rw [hty, hv] at hp
    simp only [getKey, bind, Except.bind] at hp
    rw [hth] at h1 h2 ht ⊢
    rw [filePitch_eq hr ha ht h1 h2] at hp
    simpa [pure, Except.pure] using hp.symm

/-! ### C65 -/

/-- **C65.** Up to 2° beyond the stall-delay shift on either side, the section lift coefficient is `CL_alpha * alpha`,
whatever the memory held. -/
theorem C65_linear (s : Stn) (mem : Option ℝ) {a : ℝ} (ha : a ≠ 0) (h1 : a - s.dA < rad 2) (h2 : -a - s.dA < rad 2) :
    sectionCL s mem a = some (s.af.CLa * a) := by
  unfold sectionCL
  rcases lt_or_gt_of_ne ha with h | h
  · rw [if_neg (by linarith), if_pos h]
    unfold liftSide
    simp only [if_pos h2, Option.map_some, Option.some.injEq]
    ring
  · rw [if_pos h]
    unfold liftSide
    simp only [if_pos h1, Option.map_some, Option.some.injEq]
    ring

/-- the blending function is between 0 and `exp (2 x)` -/
theorem step_bounds (x : ℝ) : 0 < Real.tanh x / 2 + 0.5 ∧ Real.tanh x / 2 + 0.5 < 1 ∧ Real.tanh x / 2 + 0.5 < Real.exp (2 * x) := by
  have h1 := Real.exp_pos x
  have h2 := Real.exp_pos (-x)
  have h3 : Real.tanh x = (Real.exp x - Real.exp (-x)) / (Real.exp x + Real.exp (-x)) := by
    rw [Real.tanh_eq_sinh_div_cosh, Real.sinh_eq, Real.cosh_eq]
    field_simp
  have h4 : Real.exp (2 * x) = Real.exp x / Real.exp (-x) := by
    rw [← Real.exp_sub]; ring_nf
  have h5 : Real.tanh x / 2 + 0.5 = Real.exp x / (Real.exp x + Real.exp (-x)) := by
    rw [h3]
    have : Real.exp x + Real.exp (-x) ≠ 0 := by positivity
    field_simp
    ring
  rw [h5, h4]
  refine ⟨by positivity, ?_, ?_⟩
  · rw [div_lt_one (by positivity)]; linarith
  · exact div_lt_div_of_pos_left h1 h2 (by linarith)

/-- lift on one side of a section beyond the linear range: Viterna's curve, shifted by the stall delay -/
noncomputable def postStall (CLa A2 dA a : ℝ) : ℝ :=
  cdm / 2 * Real.sin (2 * (a - dA)) + A2 * Real.cos (a - dA) ^ 2 / Real.sin (a - dA) + CLa * dA

theorem liftSide_blend {CLa A2 aStall dA a l : ℝ} (h : liftSide CLa A2 aStall (a - dA) = some l) :
    l + CLa * dA = CLa * a ∨ ∃ t, 0 < t ∧ t < 1 ∧ t < Real.exp (-2 * deg (aStall + dA - a)) ∧
      l + CLa * dA = (1 - t) * (CLa * a) + t * postStall CLa A2 dA a := by
  unfold liftSide at h
  simp only at h
  split_ifs at h with h1 h2
  · left
    simp only [Option.some.injEq] at h
    rw [← h]; ring
  · right
    simp only [Option.some.injEq] at h
    obtain ⟨b1, b2, b3⟩ := step_bounds (deg (a - dA - aStall))
    refine ⟨_, b1, b2, ?_, ?_⟩
    · convert b3 using 2
      unfold deg
      ring
    · rw [← h]
      unfold postStall
      ring

/-- **C65, beyond 2°.** From there on the coefficient is a proper mean of the line and the post-stall curve; before
stall the share of the latter is less than `exp(-2 m)`, with `m` the margin to the (delayed) stall angle in degrees.  The
same holds for negative angles, with the stall angle and the constant of the negative side. -/
theorem C65_blend (s : Stn) (mem : Option ℝ) {a CL : ℝ} (h : sectionCL s mem a = some CL) :
    (0 < a → CL = s.af.CLa * a ∨ ∃ t, 0 < t ∧ t < 1 ∧ t < Real.exp (-2 * deg (s.aStall + s.dA - a)) ∧
      CL = (1 - t) * (s.af.CLa * a) + t * postStall s.af.CLa s.A2 s.dA a) ∧
    (a < 0 → CL = s.af.CLa * a ∨ ∃ t, 0 < t ∧ t < 1 ∧ t < Real.exp (-2 * deg (s.aStallNeg + s.dA - -a)) ∧
      CL = (1 - t) * (s.af.CLa * a) - t * postStall s.af.CLa s.A2n s.dA (-a)) := by
  unfold sectionCL at h
  constructor
  · intro ha
    rw [if_pos ha] at h
    obtain ⟨l, hl, rfl⟩ := Option.map_eq_some_iff.1 h
    exact liftSide_blend hl
  · intro ha
    rw [if_neg (by linarith), if_pos ha] at h
    obtain ⟨l, hl, rfl⟩ := Option.map_eq_some_iff.1 h
    rcases liftSide_blend hl with h | ⟨t, h1, h2, h3, h4⟩
    · left; linarith
    · right
      exact ⟨t, h1, h2, h3, by linarith⟩

/-- **C65, oddness.** For a section without camber (zero-lift angle 0) the lift coefficient is an odd function of the angle
of attack, through stall on both sides. -/
theorem C65_odd {q : PropGeom} {zeta r beta cb : ℝ} {af : BladeAf} {s : Stn} (h : mkStn q zeta r af beta cb = some s)
    (h0 : af.aL0 = 0) (mem : Option ℝ) {a : ℝ} (ha : a ≠ 0) :
    sectionCL s mem (-a) = (sectionCL s mem a).map Neg.neg := by
  unfold mkStn at h
  simp only at h
  split_ifs at h with hf
  simp only [Option.some.injEq] at h
  have e1 : s.aStallNeg = s.aStall := by rw [← h, h0]; simp
  have e2 : s.A2n = s.A2 := by
    rw [← h, h0]
    simp only [mul_zero, add_zero]
    rw [div_mul_cancel₀ _ hf.2.2.1]
  have key : ∀ x, 0 < x → sectionCL s mem (-x) = (sectionCL s mem x).map Neg.neg := by
    intro x hx
    unfold sectionCL
    rw [if_neg (by linarith), if_pos (by linarith : -x < 0), if_pos hx, e1, e2, neg_neg]
    rcases liftSide s.af.CLa s.A2 s.aStall (x - s.dA) with _ | l
    · rfl
    · simp only [Option.map_some, Option.some.injEq]; ring
  rcases lt_or_gt_of_ne ha with h | h
  · have := key (-a) (by linarith)
    rw [neg_neg] at this
    rw [this, Option.map_map]
    rcases sectionCL s mem (-a) with _ | x <;> simp
  · exact key a h

/-! ### C67 -/

theorem npSign_mul_neg (x : ℝ) : npSign (x * -1) = -npSign x := by
  unfold npSign
  rcases lt_trichotomy x 0 with h | h | h
  · rw [if_pos (by linarith), if_neg (by linarith), if_pos h]; norm_num
  · subst h; simp
  · rw [if_neg (by linarith), if_pos (by linarith), if_pos h]

theorem npSign_values (x : ℝ) : (npSign x = 1 ∧ 0 < x) ∨ (npSign x = -1 ∧ x < 0) ∨ (npSign x = 0 ∧ x = 0) := by
  unfold npSign
  rcases lt_trichotomy x 0 with h | h | h
  · right; left; rw [if_neg (by linarith), if_pos h]; exact ⟨rfl, h⟩
  · subst h; right; right; simp
  · left; rw [if_pos h]; exact ⟨rfl, h⟩

/-- **C67, the part that holds.** Every corrected iterate has magnitude below 1 rad; unless pitch and advance angle are
equal, it is zero or has the sign of their difference. -/
theorem C67_range_partial (beta einf ei : ℝ) :
    |correctEi beta einf ei| < 1 ∧
    (beta - einf ≠ 0 → correctEi beta einf ei = 0 ∨ 0 < correctEi beta einf ei * (beta - einf)) := by
  unfold correctEi
  simp only
  set e := if |ei| < 1 then ei else 0.3 * npSign (beta - einf) with he
  have hs := npSign_values (beta - einf)
  have h1 : |e| < 1 := by
    rw [he]
    split_ifs with h
    · exact h
    · rcases hs with h | h | h <;> rw [h.1] <;> norm_num [abs_lt]
  refine ⟨?_, fun hne => ?_⟩
  · split_ifs with h
    · rw [abs_mul]; simpa using h1
    · exact h1
  · have hv := npSign_values e
    split_ifs with h
    · rcases hs with ⟨a1, a2⟩ | ⟨a1, a2⟩ | ⟨a1, a2⟩ <;> rcases hv with ⟨b1, b2⟩ | ⟨b1, b2⟩ | ⟨b1, b2⟩
      · rw [a1, b1] at h; exact absurd rfl h
      · right; nlinarith
      · left; rw [b2]; ring
      · right; nlinarith
      · rw [a1, b1] at h; exact absurd rfl h
      · left; rw [b2]; ring
      · exact absurd a2 hne
      · exact absurd a2 hne
      · exact absurd a2 hne
    · push Not at h
      rcases hs with ⟨a1, a2⟩ | ⟨a1, a2⟩ | ⟨a1, a2⟩ <;> rcases hv with ⟨b1, b2⟩ | ⟨b1, b2⟩ | ⟨b1, b2⟩
      · right; nlinarith
      · rw [a1, b1] at h; norm_num at h
      · left; exact b2
      · rw [a1, b1] at h; norm_num at h
      · right; nlinarith
      · left; exact b2
      · exact absurd a2 hne
      · exact absurd a2 hne
      · exact absurd a2 hne

/-- **C67 fails** where pitch and advance angle are equal: the iterate is not made zero, its sign is flipped. -/
theorem C67_refuted {beta ei : ℝ} (h1 : |ei| < 1) : correctEi beta beta ei = -ei := by
  unfold correctEi
  simp only [sub_self]
  rw [if_pos h1]
  have h0 : npSign 0 = 0 := by simp [npSign]
  rw [h0]
  split_ifs with h
  · ring
  · push Not at h
    rcases npSign_values ei with ⟨b1, -⟩ | ⟨b1, -⟩ | ⟨-, b2⟩
    · rw [b1] at h; norm_num at h
    · rw [b1] at h; norm_num at h
    · rw [b2]; ring

/-- the range holds for what the whole iteration returns, whatever the start, the memory and the number of passes -/
theorem eiLoop_range {ι : Type} (M : PropM ι) (einf : ℕ → ℝ) (fuel k : ℕ) (x0 x1 x2 y0 y1 : ℕ → ℝ) (st st' : PropSt)
    (r : ℕ → ℝ) (h : eiLoop M einf fuel k x0 x1 x2 y0 y1 st = (.ok r, st')) :
    ∀ i, ∃ e, r i = correctEi (M.stn i).beta (einf i) e := by
  induction fuel generalizing k x0 x1 x2 y0 y1 st with
  | zero => simp [eiLoop] at h
  | succ fuel ih =>
    unfold eiLoop at h
    simp only at h
    split_ifs at h with hc
    · simp only [Act.pure_run, Prod.mk.injEq, Except.ok.injEq] at h
      intro i
      rw [← h.1]
      exact ⟨_, rfl⟩
    · obtain ⟨y, s1, -, h2⟩ := Act.bind_ok.1 h
      exact ih _ _ _ _ _ _ _ h2

theorem findEi_range {ι : Type} {M : PropM ι} {einf : ℕ → ℝ} {fuel : ℕ} {st st' : PropSt} {r : ℕ → ℝ}
    (h : findEi M fuel einf st = (.ok r, st')) : ∀ i, ∃ e, r i = correctEi (M.stn i).beta (einf i) e := by
  unfold findEi at h
  rw [Act.get_bind] at h
  obtain ⟨y0, s1, -, h⟩ := Act.bind_ok.1 h
  obtain ⟨y1, s2, -, h⟩ := Act.bind_ok.1 h
  exact eiLoop_range M einf _ _ _ _ _ _ _ _ _ _ h

/-- **C67 for the analysis, the part that holds.** Whenever the coefficients are found at an advance ratio, every induced
angle used has magnitude below 1 rad, and is zero or has the sign of pitch minus advance angle unless these are equal. -/
theorem C67_solution_partial {ι : Type} {M : PropM ι} {simps : List ℝ → List ℝ → ℝ} {fuel : ℕ} {J : ℝ} {st st' : PropSt}
    {c : Coefs} (h : findCoefs M simps fuel J st = (.ok c, st')) (i : ℕ) :
    |c.ei i| < 1 ∧ ((M.stn i).beta - c.einf i ≠ 0 → c.ei i = 0 ∨ 0 < c.ei i * ((M.stn i).beta - c.einf i)) := by
  unfold findCoefs at h
  simp only [Act.change_bind] at h
  obtain ⟨_, s1, -, h⟩ := Act.bind_ok.1 h
  obtain ⟨ei, s2, h2, h⟩ := Act.bind_ok.1 h
  rw [Act.change_bind] at h
  obtain ⟨e, he⟩ := findEi_range h2 i
  unfold coefsAt at h
  simp only at h
  obtain ⟨CL, s3, -, h⟩ := Act.bind_ok.1 h
  obtain ⟨CD, s4, -, h⟩ := Act.bind_ok.1 h
  obtain ⟨CLa, s5, -, h⟩ := Act.bind_ok.1 h
  simp only [Act.pure_run, Prod.mk.injEq, Except.ok.injEq] at h
  rw [← h.1]
  simp only
  rw [he]
  exact C67_range_partial _ _ _

/-! ### C71 -/

/-- **C71.** For motor data without a vanishing denominator: a plane without units is rejected; the torque in SI units is
1.3558179483314 times the torque in English units; and at constant throttle the torque is a decreasing linear function of
the rotation rate (for a non-zero gear ratio and positive total resistance), with the stall torque stated. -/
theorem C71_motor (m : Motor) (thr : ℝ) (hk : m.kv ≠ 0)
    (hR : (1 - 0.079 * (1 - thr)) * thr * m.rb + m.rc + m.rm ≠ 0) :
    (∀ n, motorTorque none m thr n = .error .runtime) ∧
    (∃ T0 slope : ℝ, (∀ n, motorTorque (some "English") m thr n = .ok (T0 - slope * n)) ∧
      (∀ n, motorTorque (some "SI") m thr n = .ok ((T0 - slope * n) * 1.3558179483314)) ∧
      (m.gr ≠ 0 → 0 < (1 - 0.079 * (1 - thr)) * thr * m.rb + m.rc + m.rm → 0 < slope) ∧
      T0 = 7.0432 * m.gr / m.kv * ((1 - 0.079 * (1 - thr)) * thr * m.eo /
        ((1 - 0.079 * (1 - thr)) * thr * m.rb + m.rc + m.rm) - m.io)) := by
  set R := (1 - 0.079 * (1 - thr)) * thr * m.rb + m.rc + m.rm with hRdef
  have run : ∀ u n, motorTorque u m thr n = match u with
      | none => .error .runtime
      | some u => if u = "English" then
          .ok (7.0432 * m.gr / m.kv * (((1 - 0.079 * (1 - thr)) * thr * m.eo - m.gr / m.kv * (n * 60)) / R - m.io))
        else .ok (7.0432 * m.gr / m.kv * (((1 - 0.079 * (1 - thr)) * thr * m.eo - m.gr / m.kv * (n * 60)) / R - m.io) *
          1.3558179483314) := by
    intro u n
    unfold motorTorque
    simp only [safeDiv, if_neg hk, bind, Except.bind, ← hRdef, if_neg hR]
    rcases u with _ | u <;> rfl
  have hlin : ∀ n, 7.0432 * m.gr / m.kv * (((1 - 0.079 * (1 - thr)) * thr * m.eo - m.gr / m.kv * (n * 60)) / R - m.io) =
      7.0432 * m.gr / m.kv * ((1 - 0.079 * (1 - thr)) * thr * m.eo / R - m.io) -
      (7.0432 * 60 * (m.gr / m.kv) ^ 2 / R) * n := by
    intro n
    field_simp
    ring
  refine ⟨fun n => by rw [run], 7.0432 * m.gr / m.kv * ((1 - 0.079 * (1 - thr)) * thr * m.eo / R - m.io),
    7.0432 * 60 * (m.gr / m.kv) ^ 2 / R, fun n => ?_, fun n => ?_, fun hg hR => ?_, rfl⟩
  · rw [run]; simp only [if_pos rfl]; rw [hlin]; rfl
  · rw [run]
    simp only
    rw [if_neg (by decide), hlin]
  · have : m.gr / m.kv ≠ 0 := div_ne_zero hg hk
    positivity

/-! ### The hypotheses are met -/

/-- C70: the root section of the example propeller -/
example : ∃ M : PropM ℕ, mkPropM (fun _ _ => 0) demoProp 0 none none = .ok M ∧
    ChordPitch (fun _ _ => 0) demoProp (zetaAt demoProp 0) (M.stn 0).r (Real.arctan (1 * demoProp.diameter / (2 * Real.pi * (M.stn 0).r))) ∧
    0 < zetaAt demoProp 0 ∧ (M.stn 0).af.aL0 = 0 := by
  obtain ⟨M, hM, -, hd, hs, -⟩ := demo_ok (ι := ℕ) (fun _ _ => 0) 0 none none
  refine ⟨M, hM, .inr (.inl ⟨1, rfl, rfl, rfl⟩), by rw [demo_zeta0]; norm_num, ?_⟩
  rw [(hs 0 (by norm_num)).2.2.2.2.1]
  rfl

/-- C65: a section of the example propeller at an angle of 0.01 rad is in the linear range -/
example : ∃ M : PropM ℕ, mkPropM (fun _ _ => 0) demoProp 0 none none = .ok M ∧
    ∀ mem, sectionCL (M.stn 0) mem 0.01 = some (6 * 0.01) ∧ sectionCL (M.stn 0) mem (-0.01) = some (6 * -0.01) := by
  obtain ⟨M, hM, -, hd, hs, -⟩ := demo_ok (ι := ℕ) (fun _ _ => 0) 0 none none
  obtain ⟨-, -, -, -, h5, h6, -⟩ := hs 0 (by norm_num)
  have h2 : (0.03 : ℝ) < rad 2 := by
    unfold rad
    have := Real.pi_gt_d2
    norm_num at this ⊢
    linarith
  have hc : (M.stn 0).af.CLa = 6 := by rw [h5]; rfl
  refine ⟨M, hM, fun mem => ⟨?_, ?_⟩⟩
  · rw [← hc]; exact C65_linear _ _ (by norm_num) (by rw [h6]; norm_num at h2 ⊢; linarith) (by rw [h6]; norm_num at h2 ⊢; linarith)
  · rw [← hc]; exact C65_linear _ _ (by norm_num) (by rw [h6]; norm_num at h2 ⊢; linarith) (by rw [h6]; norm_num at h2 ⊢; linarith)

/-- C65, odd: the sections of the example propeller -/
example : ∃ s, mkStn demoProp 0.5 0.5 demoFoil.blade 0.1 0.07585 = some s ∧ demoFoil.blade.aL0 = 0 := by
  obtain ⟨s, h, -⟩ := demo_stn (beta := 0.1) (zeta := 0.5) (r := 0.5) (cb := 0.07585) (by norm_num) (by norm_num) (by norm_num)
  exact ⟨s, h, rfl⟩

/-- C67: the example propeller is solved at advance ratio 0.5, with induced angles that are not 0 -/
example : ∃ (M : PropM ℕ) (mem : ℕ → ℕ → Option ℝ) (c : Coefs) (st' : PropSt),
    findCoefs M (fun _ _ => 1) 1 0.5 { rps := 0, mem } = (.ok c, st') ∧ c.ei 0 ≠ 0 := by
  obtain ⟨M, hM, hn, hd, hs, hz, -⟩ := demo_ok (ι := ℕ) (fun _ _ => 0) 0 none none
  obtain ⟨mem, hmem⟩ := first_solve (demo_mild hM (J := 0.5) (by norm_num) (by norm_num)) (fun _ => 1)
    (st := { rps := 0, mem := fun _ _ => none }) (fun _ _ => rfl)
  obtain ⟨c, st', h1, -, h3, -⟩ := hmem (fun _ _ => 1) 0
  rw [hn] at h3
  obtain ⟨k1, k2, -⟩ := h3 0 (by norm_num)
  refine ⟨M, mem, c, st', h1, ?_⟩
  have hp : 0 < Real.pi * 0.5 := mul_pos Real.pi_pos (by norm_num)
  rw [k2, k1, (hs 0 (by norm_num)).2.2.2.1, hz]
  unfold einfAt
  rw [arctan2_pos _ hp]
  exact (sub_pos.2 (Real.arctan_strictMono (div_lt_div_of_pos_right (by norm_num) hp))).ne'

/-- C67 refuted: pitch and advance angle of the example propeller are equal at advance ratio 1 -/
example : ∃ M : PropM ℕ, mkPropM (fun _ _ => 0) demoProp 0 none none = .ok M ∧
    ∀ i, i < 2 → (M.stn i).beta = einfAt 1 (M.stn i).zeta ∧ correctEi (M.stn i).beta (einfAt 1 (M.stn i).zeta) 0.1 = -0.1 := by
  obtain ⟨M, hM, -, hd, hs, -⟩ := demo_ok (ι := ℕ) (fun _ _ => 0) 0 none none
  refine ⟨M, hM, fun i hi => ?_⟩
  have hb : (M.stn i).beta = einfAt 1 (M.stn i).zeta := by
    rw [(hs i hi).2.2.2.1]
    unfold einfAt
    rw [arctan2_pos _ (mul_pos Real.pi_pos (hs i hi).1)]
  exact ⟨hb, by rw [← hb]; exact C67_refuted (by norm_num [abs_lt])⟩

/-- C71: a motor at half throttle -/
example : let m : Motor := ⟨800, 0.05, 1, 1, 0.01, 12, 0.01⟩
    m.kv ≠ 0 ∧ m.gr ≠ 0 ∧ 0 < (1 - 0.079 * (1 - (0.5 : ℝ))) * 0.5 * m.rb + m.rc + m.rm := by
  norm_num

end Verif
