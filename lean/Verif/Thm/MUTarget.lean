import Verif.Spec.MUTrim
import Verif.Lemmas.MUFrame
import Verif.Thm.MUDerivs
import Verif.Examples.LineBackend

/-!
# `target_lift` (C49)

All theorems hold for arbitrary solvers.
-/

namespace Verif
open Act

variable {ι : Type} {B : Backend ι} {ps : Option B.π}

/-! ### number of solves -/

/-- the computation raises `count` by at most `k` -/
def Costs {S α : Type} (count : S → ℕ) (k : ℕ) (m : Act S α) : Prop := ∀ s, count (m s).2 ≤ count s + k

section costs
variable {S α β : Type} {cnt : S → ℕ} {j k : ℕ}

theorem Costs.bind {m : Act S α} {f : α → Act S β} (hm : Costs cnt j m) (hf : ∀ a, Costs cnt k (f a)) :
    Costs cnt (j + k) (m >>= f) := by
  intro s
  rw [bind_def]
  have := hm s
  rcases h : m s with ⟨e | a, s1⟩ <;> rw [h] at this
  · simp only at this ⊢; omega
  · have h2 := hf a s1
    simp only at this ⊢; omega

theorem Costs.mono {m : Act S α} (hm : Costs cnt j m) (h : j ≤ k) : Costs cnt k m := fun s => by
  have := hm s; omega

theorem Act.Keeps.costs {m : Act S α} (hm : Keeps cnt m) : Costs cnt 0 m := fun s => by rw [hm s]; omega

theorem Costs.ite {c : Prop} [Decidable c] {m n : Act S α} (hm : Costs cnt k m) (hn : Costs cnt k n) :
    Costs cnt k (if c then m else n) := by split <;> assumption

theorem Costs.tryFinite {m : Act S α} (hm : Costs cnt k m) : Costs cnt k (tryFinite m) := by
  intro s
  have := hm s
  unfold Act.tryFinite
  rcases h : m s with ⟨e | a, s1⟩ <;> rw [h] at this
  · cases e <;> exact this
  · exact this

end costs

section
variable {count : World B → ℕ}

theorem SolveCount.withAero (hc : SolveCount ps count) {k : ℕ} {α : Type} {m : Act (World B) α} (d : AeroDict ι)
    (hm : Costs count k m) : Costs count k (withAero d m) := by
  intro w
  have := hm { w with aero := some d }
  unfold Verif.withAero
  rcases h : m { w with aero := some d } with ⟨e | a, w'⟩ <;> rw [h] at this <;> simp only [hc.aero] <;>
    exact this.trans (by rw [hc.aero])

theorem SolveCount.liftAt (hc : SolveCount ps count) (d : AeroDict ι) (x : Option ℝ) :
    Costs count 1 (liftAt ps d x : Act (World B) _) := by
  unfold Verif.liftAt
  cases x with
  | none =>
    exact Costs.bind (j := 1) (k := 0) hc.solveBad fun _ => (Keeps.pure _).costs
  | some a =>
    exact Costs.bind (j := 1) (k := 0) (hc.withAero _ (Costs.tryFinite hc.solve)) fun _ => (Keeps.pure _).costs

theorem SolveCount.targetLoop (hc : SolveCount ps count) {L error : ℝ} (left : ℕ) (x0 y0 x1 y1 : Option ℝ)
    (d : AeroDict ι) : Costs count left (targetLoop ps L error left x0 y0 x1 y1 d : Act (World B) _) := by
  induction left generalizing x0 y0 x1 y1 d with
  | zero => exact (Keeps.ret _).costs
  | succ n ih =>
    unfold Verif.targetLoop
    refine Costs.ite ((Keeps.pure _).costs.mono (by omega)) ?_
    rw [show n + 1 = 1 + n by omega]
    refine Costs.bind (hc.liftAt _ _) fun ⟨y2, d2⟩ => ?_
    exact Costs.ite ((Keeps.pure _).costs.mono (by omega)) (ih _ _ _ _ _)

theorem SolveCount.targetBody (hc : SolveCount ps count) {L error : ℝ} :
    Costs count 23 (targetBody ps L error : Act (World B) _) := by
  unfold Verif.targetBody
  refine Costs.bind (j := 0) (k := 23) (keeps_getAero _).costs fun d => ?_
  refine Costs.bind (j := 0) (k := 23) (keeps_needKey _).costs fun x0 => ?_
  refine Costs.bind (j := 1) (k := 22) (hc.liftAt _ _) fun ⟨_, _⟩ => ?_
  exact Costs.bind (j := 1) (k := 21) (hc.liftAt _ _) fun ⟨_, _⟩ => hc.targetLoop 21 _ _ _ _ _

theorem SolveCount.writeFile (hc : SolveCount ps count) (filename : Option String) (doc : Doc ι) :
    Costs count 0 (writeFile filename doc : Act (World B) _) := by
  unfold Verif.writeFile
  cases filename with
  | none => exact (Keeps.ret _).costs
  | some f => exact fun w => by simp [hc.files]

/-- **C49, effort.** `target_lift` calls `solve` at most 23 times, whatever the lift curve, target, tolerance and start. -/
theorem C49_effort (hc : SolveCount ps count) (L error : ℝ) (filename : Option String) (w : World B) :
    count (targetLift ps L error filename w).2 ≤ count w + 23 := by
  have key : Costs count 23 (targetLift ps L error filename : Act (World B) _) := by
    unfold targetLift
    refine Costs.bind (j := 0) (k := 23) (Keeps.get).costs fun w => Costs.ite ?_ ?_
    · refine Costs.bind (j := 23) (k := 0) hc.targetBody fun r => ?_
      cases r with
      | some a => exact Costs.bind (j := 0) (k := 0) (hc.writeFile _ _) fun _ => (Keeps.pure _).costs
      | none =>
        cases filename with
        | none => exact (Keeps.raise _).costs
        | some f => exact Costs.bind (j := 0) (k := 0) (hc.writeFile _ _) fun _ => (Keeps.pure _).costs
    · refine Costs.bind (j := 23) (k := 0) (hc.withAero _ hc.targetBody) fun ⟨r, _⟩ => ?_
      cases r with
      | some a => exact Costs.bind (j := 0) (k := 0) (hc.writeFile _ _) fun _ => (Keeps.pure _).costs
      | none => exact (Keeps.raise _).costs
  exact key w

end

/-- the number of result dictionaries created is such a measure, for every solver -/
theorem solveCount_objs (ps : Option B.π) : SolveCount ps (fun w : World B => w.objs.length) where
  solve := by
    have hparts : Costs (fun w : World B => w.objs.length) 1 (solveParts ps : Act (World B) _) := by
      unfold solveParts
      refine Costs.bind (j := 0) (k := 1) (keeps_getAero _).costs fun d => ?_
      refine Costs.bind (j := 0) (k := 1) (Keeps.costs ?_) fun pr => ?_
      · unfold solveProps
        refine Keeps.ite ?_ (Keeps.pure _)
        refine Keeps.bind (keeps_onSolver fun _ _ => rfl) fun ⟨r, field⟩ => ?_
        dsimp only
        cases field
        · exact Keeps.bind (Keeps.ret _) fun _ => Keeps.pure _
        · exact Keeps.bind (keeps_setAero fun _ _ _ => rfl) fun _ => Keeps.pure _
      · refine Costs.bind (j := 0) (k := 1) (Keeps.costs ?_) fun wg => ?_
        · unfold solveWings
          refine Keeps.ite ?_ (Keeps.pure _)
          exact Keeps.bind Keeps.get fun w => Keeps.bind (keeps_onSolver fun _ _ => rfl) fun _ => Keeps.pure _
        · refine Costs.bind (j := 1) (k := 0) (fun w => ?_) fun _ => (Keeps.pure _).costs
          simp
    have key : Costs (fun w : World B => w.objs.length) 1 (muSolve ps : Act (World B) _) := by
      unfold muSolve
      refine Costs.bind (j := 0) (k := 1) (Keeps.get).costs fun w => Costs.ite ?_ ?_
      · exact Costs.bind (j := 1) (k := 0) hparts fun _ => (Keeps.pure _).costs
      · refine Costs.bind (j := 1) (k := 0) (fun w => ?_) fun _ => (Keeps.pure _).costs
        have := hparts { w with aero := some defaultAeroDict }
        unfold withAero
        rcases h : solveParts ps { w with aero := some defaultAeroDict } with ⟨e | a, w'⟩ <;> rw [h] at this <;> exact this
    exact key
  solveBad := fun w => by
    unfold onSolver
    rcases B.solveBad w.st with ⟨r, st⟩
    simp
  aero := fun _ _ => rfl
  ctrl := fun _ _ => rfl
  files := fun _ _ => rfl

/-! ### what is returned -/

/-- `x` (if it is a number) was tried and `y` (if it is a number) is the lift found minus the target -/
def Tried (ps : Option B.π) (d : AeroDict ι) (c : Option CtrlDict) (L : ℝ) (x y : Option ℝ) : Prop :=
  ∀ x' y', x = some x' → y = some y' → ∃ r, SolvedAt ps { d with alpha := some x' } c r ∧ y' = r.FL - L

theorem SameEntries.setAlpha {d d' : AeroDict ι} {a0 : Option ℝ} (h : SameEntries B { d with alpha := a0 } d') (a : ℝ) :
    SameEntries B { d with alpha := some a } { d' with alpha := some a } := by
  refine ⟨?_, fun hB => ?_⟩
  · have := h.1
    have h2 := congrArg (fun z : AeroDict ι => { z with alpha := some a }) this
    exact h2
  · rw [h.2 hB]

theorem liftAt_spec {d d1 : AeroDict ι} {a0 x : Option ℝ} {w w' : World B} {y : Option ℝ} {d2 : AeroDict ι}
    (hs : SameEntries B { d with alpha := a0 } d1) (L : ℝ) (h : liftAt ps d1 x w = (.ok (y, d2), w')) :
    (∃ a, SameEntries B { d with alpha := a } d2) ∧ Tried ps d w.ctrl L x (y.map (· - L)) ∧ w'.ctrl = w.ctrl ∧
      w'.files = w.files := by
  unfold liftAt at h
  cases x with
  | none =>
    replace h := bind_ok.1 h
    obtain ⟨r, w1, h1, h⟩ := h
    simp only [pure_run, Prod.mk.injEq, Except.ok.injEq] at h
    obtain ⟨⟨rfl, rfl⟩, rfl⟩ := h
    unfold onSolver at h1
    rcases hb : B.solveBad w.st with ⟨r', st⟩
    rw [hb] at h1
    simp only [Prod.mk.injEq] at h1
    obtain ⟨-, rfl⟩ := h1
    exact ⟨⟨_, hs⟩, fun _ _ hx => by simp at hx, rfl, rfl⟩
  | some a =>
    replace h := bind_ok.1 h
    obtain ⟨⟨r, d3⟩, w1, h1, h⟩ := h
    simp only [pure_run, Prod.mk.injEq, Except.ok.injEq] at h
    obtain ⟨⟨rfl, rfl⟩, rfl⟩ := h
    unfold withAero at h1
    rcases ht : Act.tryFinite (muSolve ps) { w with aero := some { d1 with alpha := some a } } with ⟨e | r', w2⟩
    · rw [ht] at h1; simp at h1
    · rw [ht] at h1
      simp only [Prod.mk.injEq, Except.ok.injEq] at h1
      obtain ⟨⟨rfl, rfl⟩, rfl⟩ := h1
      have hs1 := hs.setAlpha a
      have hsolve : ∃ res, muSolve ps { w with aero := some { d1 with alpha := some a } } = (res, w2) ∧
          ∀ r, r' = some r → res = .ok r := by
        rcases tryFinite_ok ht with ⟨x, rfl, hx⟩ | ⟨rfl, hx⟩
        · exact ⟨_, hx, fun r hr => by simp at hr; rw [hr]⟩
        · exact ⟨_, hx, fun r hr => by simp at hr⟩
      obtain ⟨res, hx, hres⟩ := hsolve
      obtain ⟨d', hd', hs2⟩ := muSolve_aero (w := { w with aero := some { d1 with alpha := some a } }) rfl hx
      have hcc := muSolve_ctrl hx
      have hff := muSolve_files hx
      refine ⟨⟨some a, ?_⟩, ?_, hcc, hff⟩
      · simp only [hd', Option.getD_some]
        exact hs1.trans hs2
      · intro x' y' hx' hy'
        simp only [Option.some.injEq] at hx'
        subst hx'
        simp only [Option.map_map, Option.map_eq_some_iff, Function.comp] at hy'
        obtain ⟨r, hr, rfl⟩ := hy'
        exact ⟨r, ⟨{ w with aero := some { d1 with alpha := some a } }, w2, _, rfl, hs1, rfl,
          by rw [hx, hres r hr]⟩, rfl⟩

theorem secant_some {x0 y0 x1 y1 : Option ℝ} {x2 : ℝ} (h : secant x0 y0 x1 y1 = some x2) :
    ∃ a0 b0 a1 b1, x0 = some a0 ∧ y0 = some b0 ∧ x1 = some a1 ∧ y1 = some b1 ∧ b1 - b0 ≠ 0 ∧
      x2 = a1 - b1 * (a1 - a0) / (b1 - b0) := by
  unfold secant at h
  split at h
  · rename_i a0 b0 a1 b1
    split_ifs at h with hb
    simp only [Option.some.injEq] at h
    exact ⟨a0, b0, a1, b1, rfl, rfl, rfl, rfl, hb, h.symm⟩
  · simp at h

theorem closeTo_true {x2 x1 : Option ℝ} {error : ℝ} (h : closeTo x2 x1 error = true) :
    ∃ a2 a1, x2 = some a2 ∧ x1 = some a1 ∧ |a2 - a1| < error := by
  unfold closeTo at h
  split at h
  · rename_i a2 a1
    exact ⟨a2, a1, rfl, rfl, by simpa using h⟩
  · simp at h

/-- `a` is the last secant iterate: `x0` and `x1` were tried, `a` is the zero of the line through the two lifts and is
closer than `error` to `x1` -/
def LastIterate (ps : Option B.π) (d : AeroDict ι) (c : Option CtrlDict) (L error a : ℝ) : Prop :=
  ∃ (x0 x1 : ℝ) (r0 r1 : Loads), SolvedAt ps { d with alpha := some x0 } c r0 ∧
    SolvedAt ps { d with alpha := some x1 } c r1 ∧ r1.FL ≠ r0.FL ∧
    a = x1 - (r1.FL - L) * (x1 - x0) / (r1.FL - r0.FL) ∧ |a - x1| < error

theorem targetLoop_ok {d d1 : AeroDict ι} {a0 : Option ℝ} {L error : ℝ} {left : ℕ} {x0 y0 x1 y1 : Option ℝ}
    {w w' : World B} {res : Option ℝ} (hs : SameEntries B { d with alpha := a0 } d1)
    (h0 : Tried ps d w.ctrl L x0 y0) (h1 : Tried ps d w.ctrl L x1 y1)
    (h : targetLoop ps L error left x0 y0 x1 y1 d1 w = (.ok res, w')) :
    w'.files = w.files ∧ ∀ a, res = some a → LastIterate ps d w.ctrl L error a := by
  induction left generalizing d1 a0 x0 y0 x1 y1 w with
  | zero =>
    simp only [targetLoop, ret_run, Prod.mk.injEq, Except.ok.injEq] at h
    obtain ⟨rfl, rfl⟩ := h
    exact ⟨rfl, fun a ha => by simp at ha⟩
  | succ n ih =>
    unfold targetLoop at h
    by_cases hclose : closeTo (secant x0 y0 x1 y1) x1 error = true
    · simp only [if_pos hclose, pure_run, Prod.mk.injEq, Except.ok.injEq] at h
      obtain ⟨rfl, rfl⟩ := h
      refine ⟨rfl, fun a ha => ?_⟩
      obtain ⟨a0', b0, a1, b1, rfl, rfl, rfl, rfl, hb, rfl⟩ := secant_some ha
      obtain ⟨a2, a1', e2, e1, hlt⟩ := closeTo_true hclose
      rw [ha] at e2
      simp only [Option.some.injEq] at e1 e2
      subst e1
      obtain ⟨r0, hr0, rfl⟩ := h0 _ _ rfl rfl
      obtain ⟨r1, hr1, rfl⟩ := h1 _ _ rfl rfl
      refine ⟨a0', a1, r0, r1, hr0, hr1, fun h => hb (by rw [h]; ring), ?_, by rw [e2]; exact hlt⟩
      congr 2
      ring
    · simp only [if_neg hclose] at h
      replace h := bind_ok.1 h
      obtain ⟨⟨y2, d2⟩, w1, hl, h⟩ := h
      obtain ⟨⟨a2, hs2⟩, ht, hc, hf⟩ := liftAt_spec hs L hl
      simp only at h
      by_cases hn : n = 0
      · simp only [if_pos hn, pure_run, Prod.mk.injEq, Except.ok.injEq] at h
        obtain ⟨rfl, rfl⟩ := h
        exact ⟨hf, fun a ha => by simp at ha⟩
      · rw [if_neg hn] at h
        have := ih hs2 (by rw [hc]; exact h1) (by rw [hc]; exact ht) h
        rw [hc] at this
        exact ⟨this.1.trans hf, this.2⟩

theorem targetBody_ok {d : AeroDict ι} {L error : ℝ} {w w' : World B} {res : Option ℝ} (hd : w.aero = some d)
    (h : targetBody ps L error w = (.ok res, w')) :
    w'.files = w.files ∧ ∀ a, res = some a → LastIterate ps d w.ctrl L error a := by
  unfold targetBody at h
  replace h := bind_ok.1 h
  obtain ⟨_, w1, e1, h⟩ := h
  rw [getAero_some hd] at e1
  simp only [Prod.mk.injEq, Except.ok.injEq, id] at e1
  obtain ⟨rfl, rfl⟩ := e1
  replace h := bind_ok.1 h
  obtain ⟨x0, w1, e1, h⟩ := h
  have hw1 : w1 = w := by
    have := keeps_needKey (p := id) d.alpha w
    rw [e1] at this
    exact this
  subst hw1
  replace h := bind_ok.1 h
  obtain ⟨⟨y0, d0⟩, w2, e2, h⟩ := h
  replace h := bind_ok.1 h
  obtain ⟨⟨y1, d1⟩, w3, e3, h⟩ := h
  have hself : SameEntries B { d with alpha := d.alpha } d := SameEntries.refl _
  obtain ⟨-, t0, c0, f0⟩ := liftAt_spec hself L e2
  obtain ⟨⟨a1, hs1⟩, t1, c1, f1⟩ := liftAt_spec hself L e3
  have := targetLoop_ok hs1 (by rw [c1, c0]; exact t0) (by rw [c1]; exact t1) h
  rw [c1, c0] at this
  exact ⟨this.1.trans (f1.trans f0), this.2⟩

/-- the lift of the last solve is within `error` times the secant slope of the target -/
theorem LastIterate.lift {d : AeroDict ι} {c : Option CtrlDict} {L error a : ℝ} (h : LastIterate ps d c L error a) :
    ∃ (x0 x1 : ℝ) (r0 r1 : Loads), SolvedAt ps { d with alpha := some x0 } c r0 ∧
      SolvedAt ps { d with alpha := some x1 } c r1 ∧ |a - x1| < error ∧
      (x0 ≠ x1 → |r1.FL - L| < error * |(r1.FL - r0.FL) / (x1 - x0)|) := by
  obtain ⟨x0, x1, r0, r1, h0, h1, hne, ha, hlt⟩ := h
  refine ⟨x0, x1, r0, r1, h0, h1, hlt, fun hx => ?_⟩
  have hd : r1.FL - r0.FL ≠ 0 := sub_ne_zero.2 hne
  have hx' : x1 - x0 ≠ 0 := sub_ne_zero.2 (Ne.symm hx)
  have e : r1.FL - L = (x1 - a) * ((r1.FL - r0.FL) / (x1 - x0)) := by
    rw [ha]; field_simp; ring
  rw [e, abs_mul, abs_sub_comm]
  exact mul_lt_mul_of_pos_right hlt (abs_pos.2 (div_ne_zero hd hx'))

/-- **C49, what is returned.** If `target_lift` returns, the answer is an angle `a` whose distance from the last angle
tried is below the tolerance — the lift at that last angle then differs from the target by less than the tolerance times
the slope of the secant —, and the angle is written to the file if one is given; or a file was given and "unliftable" was
recorded in it. -/
theorem C49_answer {d : AeroDict ι} {L error : ℝ} {filename : Option String} {w w' : World B} {ans : TrimAnswer}
    (hd : w.aero = some d) (ht : d.truthy = true) (h : targetLift ps L error filename w = (.ok ans, w')) :
    (∃ a, ans = .alpha a ∧
      w'.files = w.files ++ (filename.map fun f => (f, Doc.target a)).toList ∧
      ∃ (x0 x1 : ℝ) (r0 r1 : Loads), SolvedAt ps { d with alpha := some x0 } w.ctrl r0 ∧
        SolvedAt ps { d with alpha := some x1 } w.ctrl r1 ∧ |a - x1| < error ∧
        (x0 ≠ x1 → |r1.FL - L| < error * |(r1.FL - r0.FL) / (x1 - x0)|)) ∨
    (ans = .error "unliftable" ∧ ∃ f, filename = some f ∧ w'.files = w.files ++ [(f, .error "unliftable")]) := by
  unfold targetLift at h
  rw [get_bind, if_pos (by simp [aeroGiven, hd, ht])] at h
  replace h := bind_ok.1 h
  obtain ⟨res, w1, h1, h⟩ := h
  obtain ⟨hf, hl⟩ := targetBody_ok hd h1
  cases res with
  | some a =>
    left
    replace h := bind_ok.1 h
    obtain ⟨_, w2, h2, h⟩ := h
    simp only [pure_run, Prod.mk.injEq, Except.ok.injEq] at h
    obtain ⟨rfl, rfl⟩ := h
    refine ⟨a, rfl, ?_, (hl a rfl).lift⟩
    unfold writeFile at h2
    cases filename with
    | none => simp only [ret_run, Prod.mk.injEq] at h2; rw [← h2.2]; simp [hf]
    | some f => simp only [change_run, Prod.mk.injEq] at h2; rw [← h2.2]; simp [hf]
  | none =>
    right
    cases filename with
    | none => simp at h
    | some f =>
      replace h := bind_ok.1 h
      obtain ⟨_, w2, h2, h⟩ := h
      simp only [pure_run, Prod.mk.injEq, Except.ok.injEq] at h
      obtain ⟨rfl, rfl⟩ := h
      unfold writeFile at h2
      simp only [change_run, Prod.mk.injEq] at h2
      exact ⟨rfl, f, rfl, by rw [← h2.2]; simp [hf]⟩

/-! ### straight lift curves -/

theorem liftAt_line {d d1 : AeroDict ι} {a0 : Option ℝ} {c : Option CtrlDict} {f : ℝ → ℝ} (hf : LiftCurve ps d c f)
    {w : World B} (hc : w.ctrl = c) (hs : SameEntries B { d with alpha := a0 } d1) (x : ℝ) :
    ∃ d2 w', liftAt ps d1 (some x) w = (.ok (some (f x), d2), w') ∧ w'.ctrl = c ∧
      ∃ a, SameEntries B { d with alpha := a } d2 := by
  obtain ⟨r, w2, h, hr⟩ := hf x { w with aero := some { d1 with alpha := some x } } _ rfl (hs.setAlpha x) hc
  have hl : ∃ d2 w', liftAt ps d1 (some x) w = (.ok (some (f x), d2), w') := by
    unfold liftAt
    simp only [bind_def, withAero, tryFinite_of_ok h, pure_run, Option.map_some, hr]
    exact ⟨_, _, rfl⟩
  obtain ⟨d2, w', hl⟩ := hl
  obtain ⟨ha, -, hc', -⟩ := liftAt_spec hs 0 hl
  exact ⟨d2, w', hl, hc'.trans hc, ha⟩

/-- **C49, straight lift curves.** If the lift is `p·alpha + q` with `p ≠ 0`, the tolerance is positive and the start angle
is not `-0.2`, then `target_lift` returns the angle at which the lift is exactly the target. -/
theorem C49_straight {d : AeroDict ι} {p q L error x : ℝ} {filename : Option String} {w : World B}
    (hd : w.aero = some d) (ht : d.truthy = true) (hx : d.alpha = some x) (hne : x ≠ -0.2) (hp : p ≠ 0) (he : 0 < error)
    (hf : LiftCurve ps d w.ctrl (fun x => p * x + q)) :
    ∃ a, (targetLift ps L error filename w).1 = .ok (.alpha a) ∧ p * a + q = L := by
  have hself : SameEntries B { d with alpha := d.alpha } d := SameEntries.refl _
  obtain ⟨d0, w0, e0, c0, s0⟩ := liftAt_line hf rfl hself x
  obtain ⟨d1, w1, e1, c1, ⟨a1, s1⟩⟩ := liftAt_line hf c0 hself (x * 1.5 + 0.1)
  have hx1 : x * 1.5 + 0.1 - x ≠ 0 := by
    intro h; apply hne; linarith
  have hy : p * (x * 1.5 + 0.1) + q - L - (p * x + q - L) ≠ 0 := by
    have : p * (x * 1.5 + 0.1) + q - L - (p * x + q - L) = p * (x * 1.5 + 0.1 - x) := by ring
    rw [this]; exact mul_ne_zero hp hx1
  have hx2 : secant (some x) (some (p * x + q - L)) (some (x * 1.5 + 0.1)) (some (p * (x * 1.5 + 0.1) + q - L)) =
      some ((L - q) / p) := by
    simp only [secant]
    rw [if_neg hy]
    congr 1
    have : p * (x * 1.5 + 0.1) + q - L - (p * x + q - L) = p * (x * 1.5 + 0.1 - x) := by ring
    rw [this]
    field_simp
    ring
  have hroot : p * ((L - q) / p) + q = L := by field_simp; ring
  have hbody : ∃ w', targetBody ps L error w = (.ok (some ((L - q) / p)), w') := by
    unfold targetBody
    rw [bind_of_ok (getAero_some hd)]
    simp only [id, hx, needKey]
    rw [bind_of_ok (ret_run _ _), bind_of_ok e0]
    simp only
    rw [bind_of_ok e1]
    simp only [Option.map_some]
    rw [show (21 : ℕ) = 20 + 1 from rfl, targetLoop, hx2]
    simp only
    by_cases hclose : closeTo (some ((L - q) / p)) (some (x * 1.5 + 0.1)) error = true
    · simp only [if_pos hclose]
      exact ⟨_, rfl⟩
    · simp only [if_neg hclose]
      obtain ⟨d2, w2, e2, c2, -⟩ := liftAt_line hf c1 s1 ((L - q) / p)
      rw [bind_of_ok e2]
      simp only [Option.map_some, if_neg (show ¬ (20 : ℕ) = 0 by norm_num), hroot]
      rw [show (20 : ℕ) = 19 + 1 from rfl, targetLoop]
      have hyne : L - L - (p * (x * 1.5 + 0.1) + q - L) ≠ 0 := by
        intro h0
        apply hclose
        have : (L - q) / p = x * 1.5 + 0.1 := by field_simp; linarith
        simp [closeTo, this, he]
      have h3 : secant (some (x * 1.5 + 0.1)) (some (p * (x * 1.5 + 0.1) + q - L)) (some ((L - q) / p)) (some (L - L)) =
          some ((L - q) / p) := by
        simp only [secant]
        rw [if_neg hyne]
        simp
      rw [h3]
      have : closeTo (some ((L - q) / p)) (some ((L - q) / p)) error = true := by simp [closeTo, he]
      simp only [if_pos this]
      exact ⟨_, rfl⟩
  obtain ⟨w', hb⟩ := hbody
  refine ⟨(L - q) / p, ?_, hroot⟩
  unfold targetLift
  rw [get_bind, if_pos (by simp [aeroGiven, hd, ht]), bind_of_ok hb]
  simp only
  cases filename <;> rfl

/-- the loop never returns an angle once the iterate is `nan` -/
theorem targetLoop_nan {L error : ℝ} {left : ℕ} {x0 y0 y1 : Option ℝ} {d1 : AeroDict ι} {w w' : World B} {res : Option ℝ}
    (h : targetLoop ps L error left x0 y0 none y1 d1 w = (.ok res, w')) : res = none := by
  induction left generalizing x0 y0 y1 d1 w with
  | zero =>
    simp only [targetLoop, ret_run, Prod.mk.injEq, Except.ok.injEq] at h
    exact h.1.symm
  | succ n ih =>
    have hsec : ∀ x0 y0 y1, secant x0 y0 none y1 = none := by
      intro x0 y0 y1; cases x0 <;> cases y0 <;> rfl
    unfold targetLoop at h
    simp only [hsec] at h
    rw [if_neg (by simp [closeTo])] at h
    replace h := bind_ok.1 h
    obtain ⟨⟨y2, d2⟩, w1, hl, h⟩ := h
    simp only at h
    split_ifs at h with hn
    · simp only [pure_run, Prod.mk.injEq, Except.ok.injEq] at h
      exact h.1.symm
    · exact ih h

/-- **C49, the degenerate start.** From the start angle `-0.2` the second trial angle is the same; whatever the lift curve,
`target_lift` then never returns an angle. -/
theorem C49_degenerate {d : AeroDict ι} {L error : ℝ} {filename : Option String} {w w' : World B} {f : ℝ → ℝ}
    (hd : w.aero = some d) (ht : d.truthy = true) (hx : d.alpha = some (-0.2)) (hf : LiftCurve ps d w.ctrl f) (a : ℝ) :
    targetLift ps L error filename w ≠ (.ok (.alpha a), w') := by
  intro h
  have hself : SameEntries B { d with alpha := d.alpha } d := SameEntries.refl _
  obtain ⟨d0, w0, e0, c0, s0⟩ := liftAt_line hf rfl hself (-0.2)
  obtain ⟨d1, w1, e1, c1, ⟨a1, s1⟩⟩ := liftAt_line hf c0 hself (-0.2)
  have hx1 : (-0.2 : ℝ) * 1.5 + 0.1 = -0.2 := by norm_num
  have hbody : ∀ res w', targetBody ps L error w = (.ok res, w') → res = none := by
    intro res w' h
    unfold targetBody at h
    rw [bind_of_ok (getAero_some hd)] at h
    simp only [id, hx, needKey] at h
    rw [bind_of_ok (ret_run _ _), bind_of_ok e0] at h
    simp only [hx1] at h
    rw [bind_of_ok e1] at h
    simp only [Option.map_some] at h
    rw [show (21 : ℕ) = 20 + 1 from rfl, targetLoop] at h
    have hsec : secant (some (-0.2)) (some (f (-0.2) - L)) (some (-0.2)) (some (f (-0.2) - L)) = none := by
      simp only [secant]; rw [if_pos (sub_self _)]
    rw [hsec] at h
    simp only at h
    rw [if_neg (by simp [closeTo])] at h
    replace h := bind_ok.1 h
    obtain ⟨⟨y2, d2⟩, w1, hl, h⟩ := h
    simp only [if_neg (show ¬ (20 : ℕ) = 0 by norm_num)] at h
    exact targetLoop_nan h
  unfold targetLift at h
  rw [get_bind, if_pos (by simp [aeroGiven, hd, ht])] at h
  replace h := bind_ok.1 h
  obtain ⟨res, w1, h1, h⟩ := h
  have := hbody _ _ h1
  subst this
  cases filename with
  | none => simp at h
  | some f =>
    replace h := bind_ok.1 h
    obtain ⟨_, w2, h2, h⟩ := h
    simp at h

/-- a plane with a straight lift curve, and one with a curved one, meet the hypotheses -/
example : ∃ a, (targetLift (B := curveB (fun x _ => 2 * x + 1) fun _ _ => 0) none 7 (1 / 100) (some "out.json")
    ⟨(), some { Vmag := some 10, rho := some 1, alpha := some 1 }, some zeroCtrlDict, [], []⟩).1 = .ok (.alpha a) ∧
    2 * a + 1 = 7 :=
  C49_straight (p := 2) (q := 1) (x := 1) rfl (by simp [AeroDict.truthy]) rfl (by norm_num) (by norm_num) (by norm_num)
    (curve_lift _ _ _)

example (a : ℝ) (w') : targetLift (B := curveB (fun x _ => x ^ 2) fun _ _ => 0) none 7 (1 / 100) (some "out.json")
    ⟨(), some { Vmag := some 10, rho := some 1, alpha := some (-0.2) }, some zeroCtrlDict, [], []⟩ ≠ (.ok (.alpha a), w') :=
  C49_degenerate rfl (by simp [AeroDict.truthy]) rfl (curve_lift _ _ zeroCtrlDict) a

end Verif
