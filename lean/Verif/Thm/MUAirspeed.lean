import Verif.Thm.MUScaling

/-!
# `stall_airspeed` (C85)

For a wings-only plane without rotation rates the lift at stall is proportional to the square of the airspeed, so the
secant iteration of `stall_airspeed` runs on a parabola.  In the variable `t = (x - s)/(x + s)`, where `s` is the stall speed,
the step is `t2 = t1 * t0`.
-/

namespace Verif
open V3 Act

/-! ### the secant method on a parabola -/

/-- the secant step on `λ x² - W` with root `s` -/
noncomputable def nextGuess (s x0 x1 : ℝ) : ℝ := (x0 * x1 + s ^ 2) / (x0 + x1)

section parabola
variable {s x x0 x1 l : ℝ}

theorem nextGuess_pos (h0 : 0 < x0) (h1 : 0 < x1) (hs : 0 < s) : 0 < nextGuess s x0 x1 := by
  unfold nextGuess; positivity

theorem offset_nextGuess (h0 : 0 < x0) (h1 : 0 < x1) (hs : 0 < s) :
    offset s (nextGuess s x0 x1) = offset s x0 * offset s x1 := by
  unfold offset nextGuess
  have a : x0 + x1 ≠ 0 := by positivity
  have b : x0 + s ≠ 0 := by positivity
  have c : x1 + s ≠ 0 := by positivity
  have e : (x0 * x1 + s ^ 2) / (x0 + x1) + s ≠ 0 := by positivity
  field_simp
  ring

theorem secant_step (hl : l ≠ 0) (h0 : 0 < x0) (h1 : 0 < x1) (hne : x1 ≠ x0) :
    x1 - (l * x1 ^ 2 - l * s ^ 2) * (x1 - x0) / ((l * x1 ^ 2 - l * s ^ 2) - (l * x0 ^ 2 - l * s ^ 2)) =
      nextGuess s x0 x1 := by
  unfold nextGuess
  have a : x0 + x1 ≠ 0 := by positivity
  have b : x1 - x0 ≠ 0 := sub_ne_zero.2 hne
  have c : (l * x1 ^ 2 - l * s ^ 2) - (l * x0 ^ 2 - l * s ^ 2) = l * (x1 - x0) * (x0 + x1) := by ring
  rw [c]
  field_simp
  ring

theorem secant_ne (hl : l ≠ 0) (h0 : 0 < x0) (h1 : 0 < x1) (hne : x1 ≠ x0) :
    (l * x1 ^ 2 - l * s ^ 2) - (l * x0 ^ 2 - l * s ^ 2) ≠ 0 := by
  have c : (l * x1 ^ 2 - l * s ^ 2) - (l * x0 ^ 2 - l * s ^ 2) = l * (x1 - x0) * (x0 + x1) := by ring
  rw [c]
  exact mul_ne_zero (mul_ne_zero hl (sub_ne_zero.2 hne)) (by positivity)

theorem offset_lt (hx : 0 < x) (hs : 0 < s) : |offset s x| < 1 := by
  unfold offset
  rw [abs_div, div_lt_one (by positivity), abs_of_pos (by positivity : 0 < x + s), abs_lt]
  constructor <;> linarith

/-- the distance from the root in terms of the offset -/
theorem dist_offset (hx : 0 < x) (hs : 0 < s) : |x - s| = |offset s x| * (2 * s / (1 - offset s x)) := by
  have h := offset_lt hx hs
  have h1 : 0 < 1 - offset s x := by linarith [le_abs_self (offset s x)]
  have e : x - s = offset s x * (2 * s / (1 - offset s x)) := by
    unfold offset at h1 ⊢
    have c : x + s ≠ 0 := by positivity
    have e1 : 1 - (x - s) / (x + s) = 2 * s / (x + s) := by field_simp; ring
    rw [e1]
    field_simp
  rw [e, abs_mul, abs_of_pos (show 0 < 2 * s / (1 - offset s x) by positivity)]

theorem dist_le {ρ : ℝ} (hx : 0 < x) (hs : 0 < s) (hρ : ρ < 1) (h : |offset s x| ≤ ρ) :
    |x - s| ≤ |offset s x| * (2 * s / (1 - ρ)) := by
  rw [dist_offset hx hs]
  have h1 : offset s x ≤ ρ := (le_abs_self _).trans h
  refine mul_le_mul_of_nonneg_left ?_ (abs_nonneg _)
  exact div_le_div_of_nonneg_left (by positivity) (by linarith) (by linarith)

/-- the error of an accepted guess -/
theorem accepted {ρ error : ℝ} (h0 : 0 < x0) (h1 : 0 < x1) (hs : 0 < s) (hρ : ρ < 1) (t0 : |offset s x0| ≤ ρ)
    (t1 : |offset s x1| ≤ ρ) (h : |nextGuess s x0 x1 - x1| < error) :
    |nextGuess s x0 x1 - s| ≤ ρ * (1 + ρ) / (1 - ρ) * error := by
  have a : 0 < x0 + x1 := by positivity
  have e1 : nextGuess s x0 x1 - x1 = -((x1 - s) * (x1 + s)) / (x0 + x1) := by
    unfold nextGuess; field_simp; ring
  have e2 : nextGuess s x0 x1 - s = (x0 - s) * (x1 - s) / (x0 + x1) := by
    unfold nextGuess; field_simp; ring
  have e3 : |nextGuess s x0 x1 - s| = |x0 - s| / (x1 + s) * |nextGuess s x0 x1 - x1| := by
    rw [e1, e2, abs_div, abs_div, abs_neg, abs_mul, abs_mul, abs_of_pos a, abs_of_pos (show 0 < x1 + s by positivity)]
    field_simp
  have hρ0 : 0 ≤ ρ := (abs_nonneg _).trans t0
  have hK : |x0 - s| / (x1 + s) ≤ ρ * (1 + ρ) / (1 - ρ) := by
    have d0 := dist_le h0 hs hρ t0
    have b1 : 2 * s ≤ (1 + ρ) * (x1 + s) := by
      have : -ρ ≤ offset s x1 := (abs_le.1 t1).1
      unfold offset at this
      rw [le_div_iff₀ (by positivity)] at this
      nlinarith
    rw [div_le_div_iff₀ (by positivity) (by linarith)]
    have d1 : |x0 - s| * (1 - ρ) ≤ ρ * (2 * s) := by
      have := mul_le_mul_of_nonneg_right (d0.trans (mul_le_mul_of_nonneg_right t0
        (div_nonneg (by positivity) (by linarith)))) (show 0 ≤ 1 - ρ by linarith)
      rwa [mul_assoc, div_mul_cancel₀ _ (by linarith : (1 - ρ) ≠ 0)] at this
    calc |x0 - s| * (1 - ρ) ≤ ρ * (2 * s) := d1
      _ ≤ ρ * ((1 + ρ) * (x1 + s)) := mul_le_mul_of_nonneg_left b1 hρ0
      _ = ρ * (1 + ρ) * (x1 + s) := by ring
  rw [e3]
  exact mul_le_mul hK h.le (abs_nonneg _) (div_nonneg (by positivity) (by linarith))

/-- close to the root the iteration stops -/
theorem stops {ρ δ error : ℝ} (h0 : 0 < x0) (h1 : 0 < x1) (hs : 0 < s) (hρ : ρ < 1) (t0 : |offset s x0| ≤ ρ)
    (t1 : |offset s x1| ≤ ρ) (hd : |offset s x1| ≤ δ) (hδ : δ * (4 * s / (1 - ρ)) < error) :
    |nextGuess s x0 x1 - x1| < error := by
  have hp := nextGuess_pos h0 h1 hs
  have e := offset_nextGuess h0 h1 hs
  have hle : |offset s (nextGuess s x0 x1)| ≤ |offset s x1| := by
    rw [e, abs_mul]
    exact mul_le_of_le_one_left (abs_nonneg _) (t0.trans hρ.le)
  have d1 := dist_le h1 hs hρ t1
  have d2 := dist_le hp hs hρ (hle.trans t1)
  have hc : 0 ≤ 2 * s / (1 - ρ) := div_nonneg (by positivity) (by linarith)
  calc |nextGuess s x0 x1 - x1| = |(nextGuess s x0 x1 - s) - (x1 - s)| := by congr 1; ring
    _ ≤ |nextGuess s x0 x1 - s| + |x1 - s| := abs_sub _ _
    _ ≤ δ * (2 * s / (1 - ρ)) + δ * (2 * s / (1 - ρ)) := add_le_add
        (d2.trans (mul_le_mul_of_nonneg_right (hle.trans hd) hc)) (d1.trans (mul_le_mul_of_nonneg_right hd hc))
    _ = δ * (4 * s / (1 - ρ)) := by ring
    _ < error := hδ

end parabola

/-! ### the sweep as a function of the solutions -/

section wings
variable {n : ℕ} {G : LLGeom (Fin n)} {Sw lat long : ℝ} {ps : Option Unit}

/-- what the sweep of `stall_onset` returns, given the solution at every angle -/
noncomputable def sweepResult (S : Fin n → Section) (W : ℝ → Except PyErr (Sol (Fin n))) :
    ℕ → ℕ → Except PyErr (Option StallResult)
  | 0, _ => .ok none
  | fuel + 1, j =>
    match W (j / 10) with
    | .ok R =>
      match findStall S R.cl with
      | some s => .ok (some ⟨s.wing, s.span, j / 10, R.total.FL⟩)
      | none => sweepResult S W fuel (j + 1)
    | .error .nonfinite => sweepResult S W fuel (j + 1)
    | .error e => .error e

/-- the object holds the same deflections as in `st0` once the control argument `c` has been processed -/
structure Held (st0 : LLState (Fin n)) (c : Option CtrlDict) (w : World (wingsBackend G Sw lat long)) : Prop where
  ctrl : w.ctrl = c
  held : (processCtrl G w.st c).ctrl = (processCtrl G st0 c).ctrl

theorem wingAt_congr {st st0 : LLState (Fin n)} {c : Option CtrlDict}
    (h : (processCtrl G st c).ctrl = (processCtrl G st0 c).ctrl) (d : AeroDict (Fin n)) (a : ℝ) :
    wingAt G st d c a = wingAt G st0 d c a := by
  have ht : ({ d with alpha := some a } : AeroDict (Fin n)).truthy = true := by simp [AeroDict.truthy]
  unfold wingAt
  rw [llSolve_aero _ _ _ _ ht, llSolve_aero _ _ _ _ ht, h]

theorem Held.step {st0 : LLState (Fin n)} {c : Option CtrlDict} {w : World (wingsBackend G Sw lat long)}
    (h : Held st0 c w) {d : AeroDict (Fin n)} (hd : w.aero = some d) (a : ℝ) :
    Held st0 c (muSolve ps (w.atAlpha a)).2 := by
  obtain ⟨-, h2, h3, h4⟩ := wings_atAlpha (ps := ps) hd a
  refine ⟨h4.trans h.ctrl, ?_⟩
  rw [h2, h.ctrl]
  rcases llSolve_keeps_ctrl G w.st { d with alpha := some a } c with k | k
  · rw [processCtrl_ctrl_congr G c k, h.held]
  · rw [processCtrl_idem G c k, h.held]

theorem stallLoop_run {st0 : LLState (Fin n)} {c : Option CtrlDict} (d : AeroDict (Fin n)) (fuel j : ℕ)
    {w : World (wingsBackend G Sw lat long)} (h : Held st0 c w) {a0 : Option ℝ} (hd : w.aero = some { d with alpha := a0 }) :
    (stallLoop ps fuel (j / 10) w).1 = sweepResult G.S (wingAt G st0 d c) fuel j ∧
    Held st0 c (stallLoop ps fuel (j / 10) w).2 ∧
    ∃ a, (stallLoop ps fuel (j / 10) w).2.aero = some { d with alpha := a } := by
  induction fuel generalizing j w a0 with
  | zero => exact ⟨rfl, h, a0, hd⟩
  | succ fuel ih =>
    have hstep := stallLoop_step (B := wingsBackend G Sw lat long) ps fuel j hd
    have hh := h.step (ps := ps) hd (j / 10)
    obtain ⟨e1, e2, e3, e4⟩ := wings_atAlpha (ps := ps) hd (j / 10)
    have hloc := wings_stallLoc (Sw := Sw) (lat := lat) (long := long) (G := G) w.st { d with alpha := a0 } w.ctrl (j / 10)
    have hw : wingAt G w.st { d with alpha := a0 } w.ctrl (j / 10) = wingAt G st0 d c (j / 10) := by
      rw [h.ctrl]
      exact wingAt_congr h.held d (j / 10)
    rw [hw] at e1 hloc
    rw [← e2] at hloc
    have key := ih (j + 1) hh e3
    unfold sweepResult
    refine hstep.symm ▸ ?_
    simp only
    rcases hR : wingAt G st0 d c (j / 10) with e | R
    · rw [hR] at e1 hloc
      cases e
      case nonfinite =>
        simp only at hloc
        rw [e1]
        erw [hloc]
        exact key
      all_goals
        rw [e1]
        exact ⟨rfl, hh, _, e3⟩
    · rw [hR] at e1 hloc
      simp only at hloc
      rw [e1]
      rcases hf : findStall G.S R.cl with _ | s
      · rw [hf] at hloc
        erw [hloc]
        simp only [hf, Except.map]
        exact key
      · rw [hf] at hloc
        erw [hloc]
        simp only [hf, Except.map]
        exact ⟨trivial, hh, _, e3⟩

theorem withAero_run {ι α : Type} {B : Backend ι} (d : AeroDict ι) (m : Act (World B) α) (w : World B) :
    (withAero d m w).1 = (m { w with aero := some d }).1.map (fun r => (r, (m { w with aero := some d }).2.aero.getD d)) ∧
    (withAero d m w).2.st = (m { w with aero := some d }).2.st ∧
    (withAero d m w).2.ctrl = (m { w with aero := some d }).2.ctrl := by
  unfold withAero
  rcases m { w with aero := some d } with ⟨e | r, w'⟩ <;> exact ⟨rfl, rfl, rfl⟩

theorem stallOnset_run {st0 : LLState (Fin n)} {c : Option CtrlDict} {d : AeroDict (Fin n)} (ht : d.truthy = true) (fuel : ℕ)
    {w : World (wingsBackend G Sw lat long)} (h : Held st0 c w) :
    (withAero d (stallOnset ps fuel) w).1 =
      (sweepResult G.S (wingAt G st0 d c) fuel 0).map (fun r => (r, (stallOnset ps fuel { w with aero := some d }).2.aero.getD d)) ∧
    Held st0 c (withAero d (stallOnset ps fuel) w).2 ∧
    ∃ a, (stallOnset ps fuel { w with aero := some d }).2.aero = some { d with alpha := a } := by
  have hrun := stallLoop_run (ps := ps) d fuel 0 (w := { w with aero := some d }) ⟨h.ctrl, h.held⟩ (a0 := d.alpha) rfl
  have he : stallOnset ps fuel { w with aero := some d } = stallLoop ps fuel ((0 : ℕ) / 10) { w with aero := some d } := by
    unfold stallOnset
    rw [get_bind, if_pos (by simp [aeroGiven, ht])]
    simp
  rw [← he] at hrun
  obtain ⟨h1, h2, h3⟩ := hrun
  obtain ⟨k1, k2, k3⟩ := withAero_run d (stallOnset (B := wingsBackend G Sw lat long) ps fuel) w
  refine ⟨?_, ⟨k3.trans h2.ctrl, ?_⟩, h3⟩
  · rw [← h1]
    exact k1
  · rw [k2]
    exact h2.held

/-! ### the same wing at another airspeed -/

/-- sections with related solutions stall at the same angles -/
theorem sweepResult_scaled (S : Fin n → Section) (c : ℝ) {W W' : ℝ → Except PyErr (Sol (Fin n))}
    (h : ∀ a, Outcome (fun R R' => R'.total = R.total.scale c c ∧ R'.cl = R.cl) (W a) (W' a)) (fuel j : ℕ) :
    sweepResult S W' fuel j = (sweepResult S W fuel j).map (Option.map fun r => { r with lift := c * r.lift }) := by
  induction fuel generalizing j with
  | zero => rfl
  | succ fuel ih =>
    have h := h (j / 10)
    unfold sweepResult
    rcases hW : W (j / 10) with e | R <;> rcases hW' : W' (j / 10) with e' | R' <;> rw [hW, hW'] at h
    · have h : e = e' := h
      subst h
      cases e
      case nonfinite => exact ih _
      all_goals rfl
    · exact h.elim
    · exact h.elim
    · obtain ⟨h1, h2⟩ : R'.total = R.total.scale c c ∧ R'.cl = R.cl := h
      simp only [h2]
      rcases findStall S R.cl with _ | s
      · exact ih _
      · simp only [h1]
        rfl

theorem Steady.faster {d : AeroDict (Fin n)} (h : Steady d) {x0 x : ℝ} (h0 : x0 ≠ 0) (a : Option ℝ) :
    ({ d with Vmag := some x0, alpha := a } : AeroDict (Fin n)).faster (x / x0) 1 =
      { d with Vmag := some x, alpha := a } := by
  obtain ⟨h1, h2, h3, h4⟩ := h
  have hr : d.rho.map (fun x => 1 * x) = d.rho := by cases d.rho <;> simp
  simp only [AeroDict.faster, AeroDict.scaleSpeed, AeroDict.scaleDensity, h1, h2, h3, h4, Option.map_some, Option.map_none,
    div_mul_cancel₀ _ h0, hr]

/-- the lift at stall is proportional to the square of the airspeed -/
theorem stall_speed {st0 : LLState (Fin n)} {c : Option CtrlDict} {d : AeroDict (Fin n)} (h : Steady d) {x0 x : ℝ}
    (h0 : 0 < x0) (hx : 0 < x) (fuel : ℕ) (a a' : Option ℝ) :
    sweepResult G.S (wingAt G st0 { d with Vmag := some x, alpha := a } c) fuel 0 =
      (sweepResult G.S (wingAt G st0 { d with Vmag := some x0, alpha := a' } c) fuel 0).map
        (Option.map fun r => { r with lift := (x / x0) ^ 2 * r.lift }) := by
  refine sweepResult_scaled G.S _ (fun b => ?_) fuel 0
  have ht : ({ d with Vmag := some x0, alpha := some b } : AeroDict (Fin n)).truthy = true := by simp [AeroDict.truthy]
  have := llSolve_faster (G := G) (m := 1) (div_pos hx h0) (st := st0) (st' := st0) rfl
    { d with Vmag := some x0, alpha := some b } c ht
  rw [h.faster h0.ne', mul_one] at this
  exact this

/-! ### the iteration -/

theorem airspeedLoop_stop {ι : Type} {B : Backend ι} {ps : Option B.π} {weight error : ℝ} {sweep fuel : ℕ}
    {x0 y0 x1 y1 x2 : ℝ} {s1 : StallResult} {aero1 : AeroDict ι} {w : World B} (hy : y1 - y0 ≠ 0)
    (hx : x1 - y1 * (x1 - x0) / (y1 - y0) = x2) (h : |x2 - x1| < error) :
    airspeedLoop ps weight error sweep (fuel + 1) x0 y0 x1 y1 s1 aero1 w = (.ok (some (s1, x2)), w) := by
  rw [airspeedLoop, if_neg hy]
  simp only [hx]
  rw [if_pos h]
  rfl

theorem airspeedLoop_go {ι : Type} {B : Backend ι} {ps : Option B.π} {weight error : ℝ} {sweep fuel : ℕ}
    {x0 y0 x1 y1 x2 : ℝ} {s1 s2 : StallResult} {aero1 aero2 : AeroDict ι} {w w2 : World B} (hy : y1 - y0 ≠ 0)
    (hx : x1 - y1 * (x1 - x0) / (y1 - y0) = x2) (h : ¬ |x2 - x1| < error)
    (hs : withAero { aero1 with Vmag := some x2 } (stallOnset ps sweep) w = (.ok (some s2, aero2), w2)) :
    airspeedLoop ps weight error sweep (fuel + 1) x0 y0 x1 y1 s1 aero1 w =
      airspeedLoop ps weight error sweep fuel x1 y1 x2 (s2.lift - weight) s2 aero2 w2 := by
  rw [airspeedLoop, if_neg hy]
  simp only [hx]
  rw [if_neg h, bind_of_ok hs]

/-- the loop of `stall_airspeed`: all guesses stay positive and it stops as soon as the offset of the last guess, multiplied
by `ρ ^ N`, is below `δ` -/
theorem airspeedLoop_run {st0 : LLState (Fin n)} {c : Option CtrlDict} {d : AeroDict (Fin n)} (hst : Steady d)
    {sweep : ℕ} {u l s error ρ δ : ℝ} {r0 : StallResult} (hu : 0 < u) (hl : 0 < l) (hs : 0 < s) (he : 0 < error)
    (hρ1 : ρ < 1) (hδ : δ * (4 * s / (1 - ρ)) < error)
    (hr0 : sweepResult G.S (wingAt G st0 { d with Vmag := some u } c) sweep 0 = .ok (some r0)) (hr : r0.lift = l * u ^ 2)
    (N : ℕ) : ∀ (fuel : ℕ) (x0 x1 : ℝ) (a : Option ℝ) (w : World (wingsBackend G Sw lat long)), N < fuel → Held st0 c w →
      0 < x0 → 0 < x1 → x1 ≠ x0 → |offset s x0| ≤ ρ → |offset s x1| ≤ ρ → |offset s x1| * ρ ^ N ≤ δ →
      ∃ v x1' w', airspeedLoop ps (l * s ^ 2) error sweep fuel x0 (l * x0 ^ 2 - l * s ^ 2) x1 (l * x1 ^ 2 - l * s ^ 2)
          { r0 with lift := l * x1 ^ 2 } { d with Vmag := some x1, alpha := a } w =
          (.ok (some ({ r0 with lift := l * x1' ^ 2 }, v)), w') ∧
        0 < v ∧ 0 < x1' ∧ |v - x1'| < error ∧ |v - s| ≤ ρ * (1 + ρ) / (1 - ρ) * error := by
  induction N with
  | zero =>
    intro fuel x0 x1 a w hf hh h0 h1 hne t0 t1 hd
    obtain ⟨fuel, rfl⟩ : ∃ m, fuel = m + 1 := ⟨fuel - 1, by omega⟩
    have hstop := stops h0 h1 hs hρ1 t0 t1 (by simpa using hd) hδ
    refine ⟨nextGuess s x0 x1, x1, w, ?_, nextGuess_pos h0 h1 hs, h1, hstop, accepted h0 h1 hs hρ1 t0 t1 hstop⟩
    exact airspeedLoop_stop (B := wingsBackend G Sw lat long) (secant_ne hl.ne' h0 h1 hne) (secant_step hl.ne' h0 h1 hne) hstop
  | succ N ih =>
    intro fuel x0 x1 a w hf hh h0 h1 hne t0 t1 hd
    obtain ⟨fuel, rfl⟩ : ∃ m, fuel = m + 1 := ⟨fuel - 1, by omega⟩
    have hp := nextGuess_pos h0 h1 hs
    have eoff := offset_nextGuess h0 h1 hs
    by_cases hstop : |nextGuess s x0 x1 - x1| < error
    · refine ⟨nextGuess s x0 x1, x1, w, ?_, hp, h1, hstop, accepted h0 h1 hs hρ1 t0 t1 hstop⟩
      exact airspeedLoop_stop (B := wingsBackend G Sw lat long) (secant_ne hl.ne' h0 h1 hne) (secant_step hl.ne' h0 h1 hne)
        hstop
    · have ht : ({ d with Vmag := some (nextGuess s x0 x1), alpha := a } : AeroDict (Fin n)).truthy = true := by
        simp [AeroDict.truthy]
      obtain ⟨q1, q2, b, q3⟩ := stallOnset_run (ps := ps) ht sweep hh
      have hsr := stall_speed (G := G) (st0 := st0) (c := c) hst hu hp sweep a d.alpha
      have hlift : { r0 with lift := (nextGuess s x0 x1 / u) ^ 2 * r0.lift } =
          ({ r0 with lift := l * nextGuess s x0 x1 ^ 2 } : StallResult) := by
        congr 1
        rw [hr]; field_simp
      have hsr' : sweepResult G.S (wingAt G st0 { d with Vmag := some (nextGuess s x0 x1), alpha := a } c) sweep 0 =
          .ok (some { r0 with lift := l * nextGuess s x0 x1 ^ 2 }) := by
        rw [hsr]
        have : ({ d with Vmag := some u, alpha := d.alpha } : AeroDict (Fin n)) = { d with Vmag := some u } := rfl
        rw [this, hr0]
        simp only [Except.map, Option.map_some, hlift]
      rw [hsr'] at q1
      have hρ0 : 0 ≤ ρ := (abs_nonneg _).trans t0
      have t2 : |offset s (nextGuess s x0 x1)| ≤ ρ * |offset s x1| := by
        rw [eoff, abs_mul]; exact mul_le_mul_of_nonneg_right t0 (abs_nonneg _)
      have t2' : |offset s (nextGuess s x0 x1)| ≤ ρ :=
        t2.trans ((mul_le_of_le_one_left (abs_nonneg _) hρ1.le).trans t1)
      have hne2 : nextGuess s x0 x1 ≠ x1 := by
        intro e; rw [e] at hstop; simp [he] at hstop
      obtain ⟨v, x1', w', hrun, hv⟩ := ih fuel x1 (nextGuess s x0 x1) b
        (withAero { d with Vmag := some (nextGuess s x0 x1), alpha := a } (stallOnset ps sweep) w).2 (by omega) q2 h1 hp hne2
        t1 t2' (by
          calc |offset s (nextGuess s x0 x1)| * ρ ^ N ≤ ρ * |offset s x1| * ρ ^ N :=
                mul_le_mul_of_nonneg_right t2 (pow_nonneg hρ0 _)
            _ = |offset s x1| * ρ ^ (N + 1) := by ring
            _ ≤ δ := hd)
      refine ⟨v, x1', w', ?_, hv⟩
      have hq : withAero { d with Vmag := some (nextGuess s x0 x1), alpha := a } (stallOnset ps sweep) w =
          (.ok (some { r0 with lift := l * nextGuess s x0 x1 ^ 2 }, { d with Vmag := some (nextGuess s x0 x1), alpha := b }),
            (withAero { d with Vmag := some (nextGuess s x0 x1), alpha := a } (stallOnset ps sweep) w).2) := by
        refine Prod.ext (q1.trans ?_) rfl
        simp only [Except.map, q3, Option.getD_some]
      exact (airspeedLoop_go (B := wingsBackend G Sw lat long) (secant_ne hl.ne' h0 h1 hne) (secant_step hl.ne' h0 h1 hne)
        hstop hq).trans hrun

/-- **C85.** For every wings-only plane, every history of the object, every flight condition `d` without rotation rates and
local velocities and with a positive airspeed guess `x0`, every positive weight and every positive `error`: if
`stall_onset` finds the plane stalled at the guess with positive lift `r0.lift`, then `stall_airspeed` returns.  It reports
the wing, span location and angle of attack that `stall_onset` reports, and a speed that differs from the exact stall
speed `s` — at which the lift at stall equals the weight — by at most a fixed multiple of `error`. -/
theorem C85_stall_airspeed {w w0 : World (wingsBackend G Sw lat long)} {d : AeroDict (Fin n)} (hd : w.aero = some d)
    (hst : Steady d) {x0 : ℝ} (hV : d.Vmag = some x0) (h0 : 0 < x0) {weight error : ℝ} (hW : 0 < weight) (he : 0 < error)
    {sweep : ℕ} {r0 : StallResult} (hs : stallOnset ps sweep w = (.ok (some r0), w0)) (hL : 0 < r0.lift)
    (filename : Option String) :
    ∃ s : ℝ, 0 < s ∧
      (stallOnset ps sweep { w with aero := some { d with Vmag := some s } }).1 = .ok (some { r0 with lift := weight }) ∧
      ∃ N, ∀ fuel > N, ∃ r v w', stallAirspeed ps weight error filename fuel sweep w = (.ok (some (.airspeed r v)), w') ∧
        r.wing = r0.wing ∧ r.span = r0.span ∧ r.alpha = r0.alpha ∧ 0 < v ∧
        |v - s| ≤ errorFactor (startOffset s x0) * error := by
  have hdx : ({ d with Vmag := some x0 } : AeroDict (Fin n)) = d := by rw [← hV]
  obtain ⟨s, hsdef⟩ : ∃ s, s = x0 * Real.sqrt (weight / r0.lift) := ⟨_, rfl⟩
  have hspos : 0 < s := by rw [hsdef]; exact mul_pos h0 (Real.sqrt_pos.2 (div_pos hW hL))
  obtain ⟨l, hl⟩ : ∃ l, l = r0.lift / x0 ^ 2 := ⟨_, rfl⟩
  have hlpos : 0 < l := by rw [hl]; positivity
  have hlift : r0.lift = l * x0 ^ 2 := by rw [hl]; field_simp
  have hweight : weight = l * s ^ 2 := by
    rw [hl, hsdef, mul_pow, Real.sq_sqrt (div_pos hW hL).le]; field_simp
  have ht : d.truthy = true := by simp [AeroDict.truthy, hV]
  have hg : aeroGiven w = true := by simp [aeroGiven, hd, ht]
  have onset : ∀ x, stallOnset ps sweep { w with aero := some { d with Vmag := some x } } =
      stallLoop ps sweep ((0 : ℕ) / 10) { w with aero := some { d with Vmag := some x } } := by
    intro x
    unfold stallOnset
    rw [get_bind, if_pos (by simp [aeroGiven, AeroDict.truthy])]
    simp
  obtain ⟨st0, hheld⟩ : ∃ st0 : LLState (Fin n), Held (G := G) st0 w.ctrl w := ⟨w.st, rfl, rfl⟩
  have hr0 : sweepResult G.S (wingAt G st0 { d with Vmag := some x0 } w.ctrl) sweep 0 = .ok (some r0) := by
    have hrun := (stallLoop_run (ps := ps) (Sw := Sw) (lat := lat) (long := long) { d with Vmag := some x0 } sweep 0
      (w := { w with aero := some { d with Vmag := some x0 } }) ⟨hheld.ctrl, hheld.held⟩ (a0 := d.alpha) rfl).1
    rw [← onset x0, hdx, ← hd] at hrun
    rw [hdx, ← hrun]
    exact congrArg Prod.fst hs
  have atSpeed : ∀ x : ℝ, 0 < x → ∀ a, sweepResult G.S (wingAt G st0 { d with Vmag := some x, alpha := a } w.ctrl) sweep 0 =
      .ok (some { r0 with lift := l * x ^ 2 }) := by
    intro x hx a
    rw [stall_speed hst h0 hx sweep a d.alpha]
    have : ({ d with Vmag := some x0, alpha := d.alpha } : AeroDict (Fin n)) = { d with Vmag := some x0 } := rfl
    rw [this, hr0]
    simp only [Except.map, Option.map_some]
    congr 3
    rw [hlift]; field_simp
  have hρ1 : startOffset s x0 < 1 := max_lt (offset_lt h0 hspos) (offset_lt (by linarith) hspos)
  have hρ0 : 0 ≤ startOffset s x0 := (abs_nonneg _).trans (le_max_left _ _)
  have t0 : |offset s x0| ≤ startOffset s x0 := le_max_left _ _
  have t1 : |offset s (x0 * 1.5 + 0.1)| ≤ startOffset s x0 := le_max_right _ _
  have hx1 : 0 < x0 * 1.5 + 0.1 := by linarith
  have hne : x0 * 1.5 + 0.1 ≠ x0 := by intro h; linarith
  refine ⟨s, hspos, ?_, ?_⟩
  · have hrun := (stallLoop_run (ps := ps) (Sw := Sw) (lat := lat) (long := long) { d with Vmag := some s } sweep 0
      (w := { w with aero := some { d with Vmag := some s } }) ⟨hheld.ctrl, hheld.held⟩ (a0 := d.alpha) rfl).1
    rw [onset s, hrun]
    refine (atSpeed s hspos d.alpha).trans ?_
    rw [← hweight]
  · have hc : 0 < 4 * s / (1 - startOffset s x0) := div_pos (by linarith) (by linarith)
    obtain ⟨δ, hδ0, hδ⟩ : ∃ δ : ℝ, 0 < δ ∧ δ * (4 * s / (1 - startOffset s x0)) < error := by
      refine ⟨error / 2 / (4 * s / (1 - startOffset s x0)), by positivity, ?_⟩
      rw [div_mul_cancel₀ _ hc.ne']
      linarith
    obtain ⟨N, hN⟩ := exists_pow_lt_of_lt_one hδ0 hρ1
    refine ⟨N, fun fuel hf => ?_⟩
    have ht0 : ({ d with Vmag := some x0, alpha := d.alpha } : AeroDict (Fin n)).truthy = true := by simp [AeroDict.truthy]
    obtain ⟨p1, p2, b0, p3⟩ := stallOnset_run (ps := ps) ht0 sweep hheld
    have ht1 : ({ d with Vmag := some (x0 * 1.5 + 0.1), alpha := d.alpha } : AeroDict (Fin n)).truthy = true := by
      simp [AeroDict.truthy]
    obtain ⟨q1, q2, b, q3⟩ := stallOnset_run (ps := ps) ht1 sweep p2
    rw [atSpeed x0 h0] at p1
    rw [atSpeed _ hx1] at q1
    obtain ⟨v, x1', w', hrun, hv0, hv1, hv2, hv3⟩ := airspeedLoop_run (ps := ps) hst h0 hlpos hspos he hρ1 hδ hr0 hlift N fuel
      x0 (x0 * 1.5 + 0.1) b _ hf q2 h0 hx1 hne t0 t1
      ((mul_le_of_le_one_left (pow_nonneg hρ0 _) (t1.trans hρ1.le)).trans hN.le)
    have hbody : airspeedBody ps weight error fuel sweep w = (.ok (some ({ r0 with lift := l * x1' ^ 2 }, v)), w') := by
      unfold airspeedBody
      rw [bind_of_ok (getAero_some hd)]
      simp only [id]
      rw [hV, bind_of_ok (show needKey (some x0) w = (.ok x0, w) from rfl)]
      have e0 : withAero { d with Vmag := some x0 } (stallOnset ps sweep) w = (_, _) := Prod.ext p1 rfl
      have e1 : withAero { d with Vmag := some (x0 * 1.5 + 0.1) } (stallOnset ps sweep)
          (withAero { d with Vmag := some x0 } (stallOnset ps sweep) w).2 = (_, _) := Prod.ext q1 rfl
      rw [bind_of_ok e0, bind_of_ok e1]
      simp only [q3, Option.getD_some]
      rw [← hweight] at hrun
      exact hrun
    refine ⟨{ r0 with lift := l * x1' ^ 2 }, v, (writeFile filename (.airspeed { r0 with lift := l * x1' ^ 2 } v) w').2, ?_,
      rfl, rfl, rfl, hv0, hv3⟩
    unfold stallAirspeed
    rw [if_pos (show (wingsBackend G Sw lat long).hasWings = true from rfl), get_bind, if_pos hg, bind_of_ok hbody]
    cases filename <;> rfl

end wings

/-! ### a concrete case -/

theorem exSol_FL : 0 < exSol.total.FL := by
  have hpi := Real.pi_pos
  have hpi3 := Real.pi_gt_three
  have hpi4 := Real.pi_le_four
  have hg := exGamma_pos
  have hlift : liftAxis exFlow.u = ⟨0, 0, -1⟩ := by
    have : cross exFlow.u ey = ⟨0, 0, -1⟩ := by simp [exFlow, cross, ey]
    unfold liftAxis
    rw [this, unit, nrm_z]
    simp
  have h1 : exSol.total.FL = dot (∑ i, secForce exGeom.S exFlow (fun _ => exGamma) (vInd exGeom.S exFlow (fun _ => exGamma)) i)
        (liftAxis exFlow.u) +
      dot (∑ i, secDrag exGeom.S exFlow exC (vInd exGeom.S exFlow (fun _ => exGamma)) i) (liftAxis exFlow.u) := rfl
  have hz : (∑ i, secForce exGeom.S exFlow (fun _ => exGamma) (vInd exGeom.S exFlow (fun _ => exGamma)) i).z =
      -(20 * exGamma) := ex_FZ
  have hup : exGamma * (2 / (3 * Real.pi)) ≤ 1 / 5 := by
    unfold exGamma
    rw [show 30 / (40 / Real.pi + 20) * (2 / (3 * Real.pi)) = 1 / (2 + Real.pi) by field_simp; ring]
    rw [div_le_div_iff₀ (by linarith) (by norm_num)]
    linarith
  have hgl : (9 : ℝ) / 10 ≤ exGamma := by
    unfold exGamma
    rw [le_div_iff₀ (by positivity)]
    have : 40 / Real.pi ≤ 40 / 3 := div_le_div_of_nonneg_left (by norm_num) (by norm_num) hpi3.le
    linarith
  have hd : ∀ i, (secDrag exGeom.S exFlow exC (vInd exGeom.S exFlow (fun _ => exGamma)) i).z ≤ 8 := by
    intro i
    have hc : secCd exGeom.S exC (alphas exGeom.S (vInd exGeom.S exFlow (fun _ => exGamma))) i ≤ 8 := by
      have ha : |alphas exGeom.S (vInd exGeom.S exFlow (fun _ => exGamma)) i| ≤ 4 :=
        (Complex.abs_arg_le_pi _).trans hpi4
      unfold secCd secCl
      generalize alphas exGeom.S (vInd exGeom.S exFlow (fun _ => exGamma)) i = al at ha
      have : ∀ i, (exGeom.S i).left = exAf ∧ (exGeom.S i).right = exAf ∧ (exGeom.S i).sp = 1 / 2 := by
        intro i; fin_cases i <;> exact ⟨rfl, rfl, rfl⟩
      simp only [(this i).1, (this i).2.1, (this i).2.2, lerp, exAf, exC]
      obtain ⟨a1, a2⟩ := abs_le.1 ha
      norm_num
      nlinarith
    have ha : (exGeom.S i).area = 1 := by fin_cases i <;> rfl
    have hv : nrm (exFlow.v i) = 10 := by
      show nrm ⟨-10, 0, 0⟩ = 10
      rw [nrm_x]; norm_num
    have hr : exFlow.rho i = 1 := rfl
    unfold secDrag
    rw [ex_vInd, ha, hv, hr]
    simp only [smul_z]
    have hn : 10 ≤ nrm (⟨-10, 0, exGamma * (2 / (3 * Real.pi))⟩ : V3) := by
      unfold nrm
      apply Real.le_sqrt_of_sq_le
      simp only [dot]
      nlinarith [mul_self_nonneg (exGamma * (2 / (3 * Real.pi)))]
    have hi : 1 / nrm (⟨-10, 0, exGamma * (2 / (3 * Real.pi))⟩ : V3) ≤ 1 / 10 := one_div_le_one_div_of_le (by norm_num) hn
    have hi0 : 0 ≤ 1 / nrm (⟨-10, 0, exGamma * (2 / (3 * Real.pi))⟩ : V3) := div_nonneg zero_le_one (nrm_nonneg _)
    have hz0 : 0 ≤ exGamma * (2 / (3 * Real.pi)) := by positivity
    have hq : 1 / nrm (⟨-10, 0, exGamma * (2 / (3 * Real.pi))⟩ : V3) * (exGamma * (2 / (3 * Real.pi))) ≤ 1 / 10 * (1 / 5) :=
      mul_le_mul hi hup hz0 (by norm_num)
    have hq0 := mul_nonneg hi0 hz0
    nlinarith
  rw [h1, hlift]
  simp only [dot, mul_zero, zero_add, mul_neg, mul_one]
  rw [hz, Fin.sum_univ_two]
  simp only [add_z]
  linarith [hd 0, hd 1]

/-- the example wing at 10 per second stalls with positive lift -/
theorem stall_example : ∃ r w', stallOnset none 1 stallWorld = (.ok (some r), w') ∧ 0 < r.lift := by
  obtain ⟨r, w', h, -, -⟩ := C48_refuted
  refine ⟨r, w', h, ?_⟩
  obtain ⟨k, hk, h1⟩ := C46_stall_onset (G := stallGeom) (w := stallWorld) rfl (by simp [AeroDict.truthy]) h
  obtain ⟨r', w'', h', -, ha⟩ := C48_refuted
  have e := C48_stall_alpha (G := stallGeom) (w := stallWorld) rfl (by simp [AeroDict.truthy]) h
  rw [h] at h'
  simp only [Prod.mk.injEq, Except.ok.injEq, Option.some.injEq] at h'
  obtain ⟨rfl, rfl⟩ := h'
  rw [e] at ha
  simp only [Option.some.injEq, AeroDict.mk.injEq] at ha
  have hk0 : (k : ℝ) / 10 = 0 := by rw [← hk]; exact ha.2.2.1
  obtain ⟨⟨R, hR, -, hl, -⟩, -⟩ := h1
  rw [hk0] at hR
  have := hR.symm.trans (stall_wingAt stallWorld.st)
  simp only [Except.ok.injEq] at this
  rw [hl, this]
  exact exSol_FL

-- C85, C56: the hypotheses are met by the example wing, which stalls at 0 degrees at its speed of 10
example : ∃ (r0 : StallResult) (w0 : World (wingsBackend stallGeom 2 2 1)) (d : AeroDict (Fin 2)), stallWorld.aero = some d ∧
    Steady d ∧ d.Vmag = some 10 ∧ d.rho.isSome ∧ stallOnset none 1 stallWorld = (.ok (some r0), w0) ∧ 0 < r0.lift := by
  obtain ⟨r, w', h, hl⟩ := stall_example
  exact ⟨r, w', _, rfl, ⟨rfl, rfl, rfl, rfl⟩, rfl, rfl, h, hl⟩

end Verif
