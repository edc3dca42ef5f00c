import Verif.Thm.MUTarget
import Verif.Thm.MUFrame

/-!
# `pitch_trim` (C50, C51) and default arguments (C52, C53, C54)

The theorems hold for arbitrary solvers.
-/

namespace Verif
open Act

variable {ι : Type} {B : Backend ι} {ps : Option B.π}

/-! ### number of solves -/

section
variable {count : World B → ℕ}

theorem SolveCount.setAero (hc : SolveCount ps count) (f : AeroDict ι → AeroDict ι) :
    Costs count 0 (setAero f : Act (World B) Unit) :=
  Act.Keeps.costs (keeps_setAero fun w _ _ => hc.aero w _)

theorem SolveCount.setCtrl (hc : SolveCount ps count) (f : CtrlDict → CtrlDict) :
    Costs count 0 (setCtrl f : Act (World B) Unit) :=
  Act.Keeps.costs (keeps_setCtrl fun w _ _ => hc.ctrl w _)

theorem SolveCount.withCtrl (hc : SolveCount ps count) {k : ℕ} {α : Type} {m : Act (World B) α} (c : CtrlDict)
    (hm : Costs count k m) : Costs count k (withCtrl c m) := by
  intro w
  have := hm { w with ctrl := some c }
  unfold Verif.withCtrl
  rcases h : m { w with ctrl := some c } with ⟨r, w'⟩
  rw [h] at this
  simp only [hc.ctrl]
  exact this.trans (by rw [hc.ctrl])

theorem SolveCount.central (hc : SolveCount ps count) {set : ℝ → Act (World B) Unit} (hs : ∀ x, Costs count 0 (set x))
    (x0 δ : ℝ) : Costs count 2 (central ps set x0 δ) := by
  unfold Verif.central
  refine Costs.bind (j := 0) (k := 2) (hs _) fun _ => ?_
  refine Costs.bind (j := 1) (k := 1) hc.solve fun _ => ?_
  refine Costs.bind (j := 0) (k := 1) (hs _) fun _ => ?_
  exact Costs.bind (j := 1) (k := 0) hc.solve fun _ => (Keeps.pure _).costs

theorem SolveCount.slopes (hc : SolveCount ps count) (f : Loads → ℝ) : Costs count 4 (slopes ps f : Act (World B) _) := by
  unfold Verif.slopes
  refine Costs.bind (j := 0) (k := 4) (keeps_getAero _).costs fun _ => ?_
  refine Costs.bind (j := 2) (k := 2) (hc.central (fun x => hc.setAero _) _ _) fun ⟨_, _⟩ => ?_
  refine Costs.bind (j := 0) (k := 2) (hc.setAero _) fun _ => ?_
  refine Costs.bind (j := 0) (k := 2) (keeps_getCtrl _).costs fun _ => ?_
  refine Costs.bind (j := 2) (k := 0) (hc.central (fun x => hc.setCtrl _) _ _) fun ⟨_, _⟩ => ?_
  exact Costs.bind (j := 0) (k := 0) (hc.setCtrl _) fun _ => (Keeps.pure _).costs

theorem SolveCount.trimLoop (hc : SolveCount ps count) {L M error : ℝ} {filename : Option String} (left : ℕ) (a de : ℝ) :
    Costs count (9 * left) (trimLoop ps L M error filename left a de : Act (World B) _) := by
  have hfile : ∀ (k : ℕ) (msg : String), Costs count k (match filename with
      | some _ => do Verif.writeFile filename (.error msg); return TrimAnswer.nothing
      | none => Act.raise .runtime : Act (World B) TrimAnswer) := by
    intro k msg
    cases filename with
    | none => exact (Keeps.raise _).costs.mono (by omega)
    | some f => exact (Costs.bind (j := 0) (k := 0) (hc.writeFile _ _) fun _ => (Keeps.pure _).costs).mono (by omega)
  induction left generalizing a de with
  | zero => exact (Keeps.ret _).costs
  | succ n ih =>
    unfold Verif.trimLoop
    rw [show 9 * (n + 1) = 0 + (0 + (1 + (4 + (4 + 9 * n)))) by omega]
    refine Costs.bind (hc.setAero _) fun _ => Costs.bind (hc.setCtrl _) fun _ => Costs.bind hc.solve fun r => ?_
    refine Costs.ite ?_ ?_
    · exact (Costs.bind (j := 0) (k := 0) (hc.writeFile _ _) fun _ => (Keeps.pure _).costs).mono (by omega)
    · refine Costs.bind (hc.slopes _) fun ⟨La, Lde⟩ => Costs.bind (hc.slopes _) fun ⟨ma, mde⟩ => ?_
      refine Costs.ite (hfile _ _) (Costs.ite ((Keeps.raise _).costs.mono (by omega)) ?_)
      exact Costs.ite (hfile _ _) (ih _ _)

/-- **C50, effort.** `pitch_trim` evaluates at most 101 iterates, each with at most nine calls of `solve`. -/
theorem C50_effort (hc : SolveCount ps count) (L M error : ℝ) (filename : Option String) (w : World B) :
    count (pitchTrim ps L M error filename w).2 ≤ count w + 9 * 101 := by
  have key : Costs count (9 * 101) (pitchTrim ps L M error filename : Act (World B) _) := by
    unfold pitchTrim
    refine Costs.bind (j := 0) (k := 9 * 101) (Keeps.get).costs fun w => Costs.ite (Costs.ite ?_ ?_) (Costs.ite ?_ ?_)
    · exact hc.trimLoop 101 _ _
    · exact hc.withCtrl _ (hc.trimLoop 101 _ _)
    · exact Costs.bind (j := 9 * 101) (k := 0) (hc.withAero _ (hc.trimLoop 101 _ _)) fun ⟨_, _⟩ => (Keeps.pure _).costs
    · exact Costs.bind (j := 9 * 101) (k := 0) (hc.withAero _ (hc.withCtrl _ (hc.trimLoop 101 _ _))) fun ⟨_, _⟩ =>
        (Keeps.pure _).costs
  exact key w

end

/-! ### what is returned -/

/-- the caller's dictionaries are those of `d` and `c` with angle `a` and elevator `e` -/
structure TrimState (d : AeroDict ι) (c : CtrlDict) (a e : Option ℝ) (w : World B) : Prop where
  aero : ∃ d', w.aero = some d' ∧ SameEntries B { d with alpha := a } d'
  ctrl : w.ctrl = some { c with elevator := e }

theorem TrimState.setAlpha {d : AeroDict ι} {c : CtrlDict} {a e : Option ℝ} {w : World B} (h : TrimState d c a e w)
    (x : ℝ) : ∃ w', Verif.setAlpha x w = (.ok (), w') ∧ TrimState d c (some x) e w' ∧ w'.files = w.files := by
  obtain ⟨⟨d', hd, hs⟩, hc⟩ := h
  exact ⟨_, setAero_some hd, ⟨⟨_, rfl, hs.setAlpha x⟩, hc⟩, rfl⟩

theorem TrimState.setElevator {d : AeroDict ι} {c : CtrlDict} {a e : Option ℝ} {w : World B} (h : TrimState d c a e w)
    (x : ℝ) : ∃ w', Verif.setElevator x w = (.ok (), w') ∧ TrimState d c a (some x) w' ∧ w'.files = w.files := by
  obtain ⟨⟨d', hd, hs⟩, hc⟩ := h
  exact ⟨_, setCtrl_some hc, ⟨⟨_, hd, hs⟩, rfl⟩, rfl⟩

theorem TrimState.solve {d : AeroDict ι} {c : CtrlDict} {a e : Option ℝ} {w w' : World B} {r : Except PyErr Loads}
    (h : TrimState d c a e w) (hr : muSolve ps w = (r, w')) : TrimState d c a e w' ∧ w'.files = w.files ∧
      ∀ r', r = .ok r' → SolvedAt ps { d with alpha := a } (some { c with elevator := e }) r' := by
  obtain ⟨⟨d', hd, hs⟩, hc⟩ := h
  obtain ⟨d2, hd2, hs2⟩ := muSolve_aero hd hr
  refine ⟨⟨⟨d2, hd2, hs.trans hs2⟩, (muSolve_ctrl hr).trans hc⟩, muSolve_files hr, ?_⟩
  rintro r' rfl
  exact ⟨w, w', d', hd, hs, hc, hr⟩

theorem TrimState.central_alpha {d : AeroDict ι} {c : CtrlDict} {a e : Option ℝ} {w w' : World B} {x δ : ℝ}
    {r : Loads × Loads} (h : TrimState d c a e w) (hr : central ps Verif.setAlpha x δ w = (.ok r, w')) :
    TrimState d c (some (x + δ)) e w' ∧ w'.files = w.files ∧
    SolvedAt ps { d with alpha := some (x + δ) } (some { c with elevator := e }) r.1 ∧
    SolvedAt ps { d with alpha := some (x - δ) } (some { c with elevator := e }) r.2 := by
  unfold Verif.central at hr
  obtain ⟨w1, e1, h1, f1⟩ := h.setAlpha (x - δ)
  rw [bind_of_ok e1] at hr
  replace hr := bind_ok.1 hr
  obtain ⟨back, w2, e2, hr⟩ := hr
  obtain ⟨h2, f2, s2⟩ := h1.solve e2
  obtain ⟨w3, e3, h3, f3⟩ := h2.setAlpha (x + δ)
  rw [bind_of_ok e3] at hr
  replace hr := bind_ok.1 hr
  obtain ⟨forw, w4, e4, hr⟩ := hr
  obtain ⟨h4, f4, s4⟩ := h3.solve e4
  simp only [pure_run, Prod.mk.injEq, Except.ok.injEq] at hr
  obtain ⟨rfl, rfl⟩ := hr
  exact ⟨h4, by rw [f4, f3, f2, f1], s4 _ rfl, s2 _ rfl⟩

theorem TrimState.central_elev {d : AeroDict ι} {c : CtrlDict} {a e : Option ℝ} {w w' : World B} {x δ : ℝ}
    {r : Loads × Loads} (h : TrimState d c a e w) (hr : central ps Verif.setElevator x δ w = (.ok r, w')) :
    TrimState d c a (some (x + δ)) w' ∧ w'.files = w.files ∧
    SolvedAt ps { d with alpha := a } (some { c with elevator := some (x + δ) }) r.1 ∧
    SolvedAt ps { d with alpha := a } (some { c with elevator := some (x - δ) }) r.2 := by
  unfold Verif.central at hr
  obtain ⟨w1, e1, h1, f1⟩ := h.setElevator (x - δ)
  rw [bind_of_ok e1] at hr
  replace hr := bind_ok.1 hr
  obtain ⟨back, w2, e2, hr⟩ := hr
  obtain ⟨h2, f2, s2⟩ := h1.solve e2
  obtain ⟨w3, e3, h3, f3⟩ := h2.setElevator (x + δ)
  rw [bind_of_ok e3] at hr
  replace hr := bind_ok.1 hr
  obtain ⟨forw, w4, e4, hr⟩ := hr
  obtain ⟨h4, f4, s4⟩ := h3.solve e4
  simp only [pure_run, Prod.mk.injEq, Except.ok.injEq] at hr
  obtain ⟨rfl, rfl⟩ := hr
  exact ⟨h4, by rw [f4, f3, f2, f1], s4 _ rfl, s2 _ rfl⟩

/-- the two slopes of a load component `g` at angle `a` and elevator `e` (degrees), per radian, are central differences
over ±0.25 degree -/
def Slopes (ps : Option B.π) (d : AeroDict ι) (c : CtrlDict) (g : Loads → ℝ) (a e fa fe : ℝ) : Prop :=
  ∃ aF aB eF eB : Loads,
    SolvedAt ps { d with alpha := some (a + 0.25) } (some { c with elevator := some e }) aF ∧
    SolvedAt ps { d with alpha := some (a - 0.25) } (some { c with elevator := some e }) aB ∧
    SolvedAt ps { d with alpha := some a } (some { c with elevator := some (e + 0.25) }) eF ∧
    SolvedAt ps { d with alpha := some a } (some { c with elevator := some (e - 0.25) }) eB ∧
    fa = (g aF - g aB) / (0.5 * degree) ∧ fe = (g eF - g eB) / (0.5 * degree)

theorem rad_half' : rad (2 * 0.25) = 0.5 * degree := by unfold rad degree; ring

theorem TrimState.slopes {d : AeroDict ι} {c : CtrlDict} {a e : ℝ} {w w' : World B} {g : Loads → ℝ} {r : ℝ × ℝ}
    (h : TrimState d c (some a) (some e) w) (hr : slopes ps g w = (.ok r, w')) :
    TrimState d c (some a) (some e) w' ∧ w'.files = w.files ∧ Slopes ps d c g a e r.1 r.2 := by
  unfold Verif.slopes at hr
  obtain ⟨⟨d1, hd1, hs1⟩, hc1⟩ := h
  have h : TrimState d c (some a) (some e) w := ⟨⟨d1, hd1, hs1⟩, hc1⟩
  have ha : d1.alpha = some a := congrArg AeroDict.alpha hs1.1
  rw [bind_of_ok (getAero_some hd1)] at hr
  simp only [ha, Option.getD_some] at hr
  replace hr := bind_ok.1 hr
  obtain ⟨⟨aF, aB⟩, w1, e1, hr⟩ := hr
  obtain ⟨h1, f1, s1, s1'⟩ := h.central_alpha e1
  obtain ⟨w2, e2, h2, f2⟩ := h1.setAlpha a
  simp only at hr
  rw [bind_of_ok e2, bind_of_ok (getCtrl_some h2.ctrl)] at hr
  simp only [Option.getD_some] at hr
  replace hr := bind_ok.1 hr
  obtain ⟨⟨eF, eB⟩, w3, e3, hr⟩ := hr
  obtain ⟨h3, f3, s3, s3'⟩ := h2.central_elev e3
  obtain ⟨w4, e4, h4, f4⟩ := h3.setElevator e
  simp only at hr
  rw [bind_of_ok e4] at hr
  simp only [pure_run, Prod.mk.injEq, Except.ok.injEq] at hr
  obtain ⟨rfl, rfl⟩ := hr
  exact ⟨h4, by rw [f4, f3, f2, f1], aF, aB, eF, eB, s1, s1', s3, s3', by rw [rad_half'], by rw [rad_half']⟩

/-- `solve` at angle `a` and elevator `e` meets the targets within `error` -/
def Trimmed (ps : Option B.π) (d : AeroDict ι) (c : CtrlDict) (L M error a e : ℝ) : Prop :=
  ∃ r : Loads, SolvedAt ps { d with alpha := some a } (some { c with elevator := some e }) r ∧
    |r.FL - L| < error ∧ |r.MY - M| < error

theorem writeFile_ok {filename : Option String} {doc : Doc ι} {w w' : World B} {u : Unit}
    (h : writeFile filename doc w = (.ok u, w')) :
    w' = { w with files := w.files ++ (filename.map fun f => (f, doc)).toList } := by
  unfold writeFile at h
  cases filename with
  | none => simp only [ret_run, Prod.mk.injEq] at h; rw [← h.2]; simp
  | some f => simp only [change_run, Prod.mk.injEq] at h; rw [← h.2]; simp

theorem trimLoop_ok {d : AeroDict ι} {c : CtrlDict} {L M error : ℝ} {filename : Option String} {left : ℕ} {a e : ℝ}
    {a0 e0 : Option ℝ} {w w' : World B} {ans : TrimAnswer} (h : TrimState d c a0 e0 w)
    (hr : trimLoop ps L M error filename (left + 1) a e w = (.ok ans, w')) :
    (∃ at' et, ans = .trim at' et ∧ Trimmed ps d c L M error at' et ∧ TrimState d c (some at') (some et) w' ∧
      w'.files = w.files ++ (filename.map fun f => (f, Doc.trim at' et)).toList) ∨
    (ans = .nothing ∧ ∃ f, filename = some f ∧
      (w'.files = w.files ++ [(f, .error "untrimmable")] ∨
        (w'.files = w.files ++ [(f, .error "no_elevator")] ∧ ∃ at' et La Ma : ℝ,
          Slopes ps d c (·.FL) at' et La 0 ∧ Slopes ps d c (·.MY) at' et Ma 0))) := by
  induction left using Nat.strong_induction_on generalizing a e a0 e0 w with
  | _ n ih =>
    unfold trimLoop at hr
    obtain ⟨w1, e1, h1, f1⟩ := h.setAlpha a
    obtain ⟨w2, e2, h2, f2⟩ := h1.setElevator e
    rw [bind_of_ok e1, bind_of_ok e2] at hr
    replace hr := bind_ok.1 hr
    obtain ⟨r, w3, e3, hr⟩ := hr
    obtain ⟨h3, f3, s3⟩ := h2.solve e3
    have hfiles3 : w3.files = w.files := by rw [f3, f2, f1]
    simp only at hr
    by_cases hsmall : |r.FL - L| < error ∧ |r.MY - M| < error
    · rw [if_pos hsmall] at hr
      replace hr := bind_ok.1 hr
      obtain ⟨_, w4, e4, hr⟩ := hr
      have := writeFile_ok e4
      simp only [pure_run, Prod.mk.injEq, Except.ok.injEq] at hr
      obtain ⟨rfl, rfl⟩ := hr
      subst this
      refine .inl ⟨a, e, rfl, ⟨r, s3 _ rfl, hsmall⟩, ⟨h3.aero, h3.ctrl⟩, ?_⟩
      simp only [hfiles3]
    · rw [if_neg hsmall] at hr
      replace hr := bind_ok.1 hr
      obtain ⟨⟨La, Lde⟩, w4, e4, hr⟩ := hr
      obtain ⟨h4, f4, s4⟩ := h3.slopes e4
      replace hr := bind_ok.1 hr
      obtain ⟨⟨ma, mde⟩, w5, e5, hr⟩ := hr
      obtain ⟨h5, f5, s5⟩ := h4.slopes e5
      have hfiles5 : w5.files = w.files := by rw [f5, f4, hfiles3]
      simp only at hr
      by_cases hno : Lde = 0 ∧ mde = 0
      · rw [if_pos hno] at hr
        cases filename with
        | none => simp at hr
        | some f =>
          replace hr := bind_ok.1 hr
          obtain ⟨_, w6, e6, hr⟩ := hr
          have := writeFile_ok e6
          simp only [pure_run, Prod.mk.injEq, Except.ok.injEq] at hr
          obtain ⟨rfl, rfl⟩ := hr
          subst this
          refine .inr ⟨rfl, f, rfl, .inr ⟨by simp [hfiles5], a, e, La, ma, ?_, ?_⟩⟩
          · have := s4; simp only at this; rwa [hno.1] at this
          · have := s5; simp only at this; rwa [hno.2] at this
      · rw [if_neg hno] at hr
        split_ifs at hr with hdet hn
        · simp at hr
        · cases filename with
          | none => simp at hr
          | some f =>
            replace hr := bind_ok.1 hr
            obtain ⟨_, w6, e6, hr⟩ := hr
            have := writeFile_ok e6
            simp only [pure_run, Prod.mk.injEq, Except.ok.injEq] at hr
            obtain ⟨rfl, rfl⟩ := hr
            subst this
            exact .inr ⟨rfl, f, rfl, .inl (by simp [hfiles5])⟩
        · obtain ⟨m, rfl⟩ := Nat.exists_eq_succ_of_ne_zero hn
          have := ih m (by omega) h5 hr
          rw [hfiles5] at this
          exact this

/-- **C50, what is returned.** If `pitch_trim` (called with both states) returns a trim, then `solve` at the returned
angle and elevator gave a lift and a pitching moment within `error` of the targets; the caller's dictionaries then hold the
returned angle and elevator, and the trim is written to the file if one is given.  Otherwise a file was given and records
"untrimmable" or "no_elevator", the latter only if, at some iterate, neither the lift nor the pitching moment changed with
the elevator. -/
theorem C50_answer {d : AeroDict ι} {c : CtrlDict} {L M error : ℝ} {filename : Option String} {w w' : World B}
    {ans : TrimAnswer} (hd : w.aero = some d) (ht : d.truthy = true) (hc : w.ctrl = some c) (hct : c.truthy = true)
    (h : pitchTrim ps L M error filename w = (.ok ans, w')) :
    (∃ a e, ans = .trim a e ∧
      (∃ r : Loads, SolvedAt ps { d with alpha := some a } (some { c with elevator := some e }) r ∧
        |r.FL - L| < error ∧ |r.MY - M| < error) ∧
      (∃ d', w'.aero = some d' ∧ SameEntries B { d with alpha := some a } d') ∧
      w'.ctrl = some { c with elevator := some e } ∧
      w'.files = w.files ++ (filename.map fun f => (f, Doc.trim a e)).toList) ∨
    (ans = .nothing ∧ ∃ f, filename = some f ∧
      (w'.files = w.files ++ [(f, .error "untrimmable")] ∨
        (w'.files = w.files ++ [(f, .error "no_elevator")] ∧ ∃ a e La Ma : ℝ,
          Slopes ps d c (·.FL) a e La 0 ∧ Slopes ps d c (·.MY) a e Ma 0))) := by
  unfold pitchTrim at h
  rw [get_bind, if_pos (by simp [aeroGiven, hd, ht]), if_pos (by simp [ctrlGiven, hc, hct])] at h
  rcases trimLoop_ok (left := 100) (a0 := d.alpha) (e0 := c.elevator) ⟨⟨d, hd, SameEntries.refl _⟩, hc⟩ h with
    ⟨a, e, h1, h2, h3, h4⟩ | h
  · exact .inl ⟨a, e, h1, h2, h3.aero, h3.ctrl, h4⟩
  · exact .inr h

/-! ### straight curves -/

/-- `solve` always succeeds and the component `g` of the loads is `k alpha elevator` -/
def Curve (ps : Option B.π) (d : AeroDict ι) (c : CtrlDict) (g : Loads → ℝ) (k : ℝ → ℝ → ℝ) : Prop :=
  ∀ (x e : ℝ) (w : World B), TrimState d c (some x) (some e) w → ∃ r w', muSolve ps w = (.ok r, w') ∧ g r = k x e

theorem Curve.slopes {d : AeroDict ι} {c : CtrlDict} {g : Loads → ℝ} {k0 ka ke a e : ℝ} {w : World B}
    (hk : Curve ps d c g (fun x e => k0 + ka * x + ke * e)) (h : TrimState d c (some a) (some e) w) :
    ∃ w', slopes ps g w = (.ok (ka / degree, ke / degree), w') ∧ TrimState d c (some a) (some e) w' := by
  have key : ∃ r w', Verif.slopes ps g w = (.ok r, w') ∧ r = (ka / degree, ke / degree) := by
    obtain ⟨⟨d1, hd1, hs1⟩, hc1⟩ := h
    have h : TrimState d c (some a) (some e) w := ⟨⟨d1, hd1, hs1⟩, hc1⟩
    have ha : d1.alpha = some a := congrArg AeroDict.alpha hs1.1
    unfold Verif.slopes
    rw [bind_of_ok (getAero_some hd1)]
    simp only [ha, Option.getD_some]
    obtain ⟨w1, e1, h1, -⟩ := h.setAlpha (a - 0.25)
    obtain ⟨r1, w2, e2, g1⟩ := hk _ _ _ h1
    obtain ⟨h2, -⟩ := h1.solve e2
    obtain ⟨w3, e3, h3, -⟩ := h2.setAlpha (a + 0.25)
    obtain ⟨r2, w4, e4, g2⟩ := hk _ _ _ h3
    obtain ⟨h4, -⟩ := h3.solve e4
    have hcen : central ps Verif.setAlpha a 0.25 w = (.ok (r2, r1), w4) := by
      unfold central
      rw [bind_of_ok e1, bind_of_ok e2, bind_of_ok e3, bind_of_ok e4]
      rfl
    rw [bind_of_ok hcen]
    obtain ⟨w5, e5, h5, -⟩ := h4.setAlpha a
    simp only
    rw [bind_of_ok e5, bind_of_ok (getCtrl_some h5.ctrl)]
    simp only [Option.getD_some]
    obtain ⟨w6, e6, h6, -⟩ := h5.setElevator (e - 0.25)
    obtain ⟨r3, w7, e7, g3⟩ := hk _ _ _ h6
    obtain ⟨h7, -⟩ := h6.solve e7
    obtain ⟨w8, e8, h8, -⟩ := h7.setElevator (e + 0.25)
    obtain ⟨r4, w9, e9, g4⟩ := hk _ _ _ h8
    obtain ⟨h9, -⟩ := h8.solve e9
    have hcen2 : central ps Verif.setElevator e 0.25 w5 = (.ok (r4, r3), w9) := by
      unfold central
      rw [bind_of_ok e6, bind_of_ok e7, bind_of_ok e8, bind_of_ok e9]
      rfl
    rw [bind_of_ok hcen2]
    obtain ⟨w10, e10, h10, -⟩ := h9.setElevator e
    simp only
    rw [bind_of_ok e10]
    refine ⟨_, _, rfl, ?_⟩
    have hdeg := degree_pos
    rw [rad_half', g1, g2, g3, g4]
    ext
    · simp only; field_simp; ring
    · simp only; field_simp; ring
  obtain ⟨r, w', hr, rfl⟩ := key
  exact ⟨w', hr, (h.slopes hr).1⟩

theorem deg_div (x : ℝ) : deg (x * degree) = x := by
  unfold deg degree
  have := Real.pi_ne_zero
  field_simp

theorem trimLoop_start {d : AeroDict ι} {c : CtrlDict} {L M error : ℝ} {filename : Option String} {left : ℕ} {a e : ℝ}
    {f m : ℝ → ℝ → ℝ} {a0 e0 : Option ℝ} {w : World B} (hcv : TrimCurves ps d c f m) (h : TrimState d c a0 e0 w)
    (hs : |f a e - L| < error ∧ |m a e - M| < error) :
    (trimLoop ps L M error filename (left + 1) a e w).1 = .ok (.trim a e) := by
  unfold trimLoop
  obtain ⟨w1, e1, h1, f1⟩ := h.setAlpha a
  obtain ⟨w2, e2, h2, f2⟩ := h1.setElevator e
  rw [bind_of_ok e1, bind_of_ok e2]
  obtain ⟨⟨d2, hd2, hs2⟩, hc2⟩ := h2
  obtain ⟨r, w3, e3, hF, hM⟩ := hcv a e w2 d2 hd2 hs2 hc2
  rw [bind_of_ok e3]
  simp only [hF, hM]
  rw [if_pos hs]
  cases filename <;> rfl

/-- **C50, straight curves.** If lift and pitching moment are linear in angle of attack and elevator with a non-singular
matrix of slopes and the tolerance is positive, `pitch_trim` returns the exact trim — or zero angle and elevator, if these
already meet the tolerance. -/
theorem C50_straight {d : AeroDict ι} {c : CtrlDict} {L M error l0 la le m0 ma me : ℝ} {filename : Option String}
    {w : World B} (hd : w.aero = some d) (ht : d.truthy = true) (hc : w.ctrl = some c) (hct : c.truthy = true)
    (he : 0 < error) (hdet : la * me - le * ma ≠ 0)
    (hcv : TrimCurves ps d c (fun x e => l0 + la * x + le * e) (fun x e => m0 + ma * x + me * e)) :
    ∃ a e, (pitchTrim ps L M error filename w).1 = .ok (.trim a e) ∧
      ((l0 + la * a + le * e = L ∧ m0 + ma * a + me * e = M) ∨
        (a = 0 ∧ e = 0 ∧ |l0 - L| < error ∧ |m0 - M| < error)) := by
  have hst : TrimState (B := B) d c d.alpha c.elevator w := ⟨⟨d, hd, SameEntries.refl _⟩, hc⟩
  have hcL : Curve ps d c (·.FL) (fun x e => l0 + la * x + le * e) := by
    intro x e w ⟨⟨d', hd', hs'⟩, hc'⟩
    obtain ⟨r, w', h, hF, -⟩ := hcv x e w d' hd' hs' hc'
    exact ⟨r, w', h, hF⟩
  have hcM : Curve ps d c (·.MY) (fun x e => m0 + ma * x + me * e) := by
    intro x e w ⟨⟨d', hd', hs'⟩, hc'⟩
    obtain ⟨r, w', h, -, hM⟩ := hcv x e w d' hd' hs' hc'
    exact ⟨r, w', h, hM⟩
  have hrun : pitchTrim ps L M error filename w = trimLoop ps L M error filename 101 0 0 w := by
    unfold pitchTrim
    rw [get_bind, if_pos (by simp [aeroGiven, hd, ht]), if_pos (by simp [ctrlGiven, hc, hct])]
  rw [hrun]
  by_cases h0 : |l0 - L| < error ∧ |m0 - M| < error
  · refine ⟨0, 0, ?_, .inr ⟨rfl, rfl, h0⟩⟩
    exact trimLoop_start (left := 100) hcv hst (by simpa using h0)
  · have hdeg := degree_pos
    obtain ⟨a, ha⟩ : ∃ a, a = (me * (L - l0) - le * (M - m0)) / (la * me - le * ma) := ⟨_, rfl⟩
    obtain ⟨e, hee⟩ : ∃ e, e = (-ma * (L - l0) + la * (M - m0)) / (la * me - le * ma) := ⟨_, rfl⟩
    have ha' : a * (la * me - le * ma) = me * (L - l0) - le * (M - m0) := by rw [ha, div_mul_cancel₀ _ hdet]
    have he' : e * (la * me - le * ma) = -ma * (L - l0) + la * (M - m0) := by rw [hee, div_mul_cancel₀ _ hdet]
    have hL : l0 + la * a + le * e = L := by
      refine mul_right_cancel₀ hdet ?_
      linear_combination la * ha' + le * he'
    have hM : m0 + ma * a + me * e = M := by
      refine mul_right_cancel₀ hdet ?_
      linear_combination ma * ha' + me * he'
    refine ⟨a, e, ?_, .inl ⟨hL, hM⟩⟩
    show (trimLoop ps L M error filename (100 + 1) 0 0 w).1 = _
    unfold trimLoop
    obtain ⟨w1, e1, h1, -⟩ := hst.setAlpha 0
    obtain ⟨w2, e2, h2, -⟩ := h1.setElevator 0
    rw [bind_of_ok e1, bind_of_ok e2]
    obtain ⟨⟨d2, hd2, hs2⟩, hc2⟩ := h2
    have h2 : TrimState d c (some 0) (some 0) w2 := ⟨⟨d2, hd2, hs2⟩, hc2⟩
    obtain ⟨r, w3, e3, hF, hMY⟩ := hcv 0 0 w2 d2 hd2 hs2 hc2
    have hF0 : r.FL = l0 := by rw [hF]; ring
    have hM0 : r.MY = m0 := by rw [hMY]; ring
    obtain ⟨h3, -⟩ := h2.solve e3
    rw [bind_of_ok e3]
    simp only [hF0, hM0]
    rw [if_neg h0]
    obtain ⟨w4, e4, h4⟩ := hcL.slopes h3
    obtain ⟨w5, e5, h5⟩ := hcM.slopes h4
    rw [bind_of_ok e4]
    simp only
    rw [bind_of_ok e5]
    simp only
    have hdet' : la / degree * (me / degree) - le / degree * (ma / degree) =
        (la * me - le * ma) / (degree * degree) := by field_simp
    have hno : ¬ (le / degree = 0 ∧ me / degree = 0) := by
      rintro ⟨h1, h2⟩
      rw [div_eq_zero_iff, or_iff_left hdeg.ne'] at h1 h2
      exact hdet (by rw [h1, h2]; ring)
    have hd0 : ¬ (la / degree * (me / degree) - le / degree * (ma / degree) = 0) := by
      rw [hdet', div_eq_zero_iff]
      rintro (h | h)
      · exact hdet h
      · exact (mul_pos hdeg hdeg).ne' h
    rw [if_neg hno, if_neg hd0, if_neg (by norm_num)]
    have ea : (0 : ℝ) + deg ((me / degree * -(l0 - L) - le / degree * -(m0 - M)) /
        (la / degree * (me / degree) - le / degree * (ma / degree))) = a := by
      rw [hdet', zero_add]
      rw [← deg_div a]
      congr 1
      rw [ha]
      field_simp
      ring
    have eb : (0 : ℝ) + deg ((-(ma / degree) * -(l0 - L) + la / degree * -(m0 - M)) /
        (la / degree * (me / degree) - le / degree * (ma / degree))) = e := by
      rw [hdet', zero_add]
      rw [← deg_div e]
      congr 1
      rw [hee]
      field_simp
      ring
    rw [ea, eb]
    refine trimLoop_start (left := 99) hcv h5 ?_
    simp only [hL, hM, sub_self, abs_zero]
    exact ⟨he, he⟩

/-- a plane with straight curves meets the hypotheses -/
example : ∃ a e, (pitchTrim (B := curveB (fun x e => 1 + 5 * x + e) fun x e => 2 - x - 3 * e) none 7 0 (1 / 100) none
    ⟨(), some { Vmag := some 10, rho := some 1 }, some zeroCtrlDict, [], []⟩).1 = .ok (.trim a e) ∧
    ((1 + 5 * a + 1 * e = 7 ∧ 2 + (-1) * a + (-3) * e = 0) ∨ (a = 0 ∧ e = 0 ∧ |(1 : ℝ) - 7| < 1 / 100 ∧ |(2 : ℝ) - 0| < 1 / 100)) := by
  refine C50_straight (d := { Vmag := some 10, rho := some 1 }) (c := zeroCtrlDict) rfl (by simp [AeroDict.truthy]) rfl
    (by simp [CtrlDict.truthy, zeroCtrlDict]) (by norm_num) (by norm_num) ?_
  have := curve_trim (f := fun x e => 1 + 5 * x + e) (m := fun x e => 2 - x - 3 * e) none
    { Vmag := some 10, rho := some 1 } zeroCtrlDict
  intro x e w d' h1 h2 h3
  obtain ⟨r, w', h, hF, hM⟩ := this x e w d' h1 h2 h3
  exact ⟨r, w', h, by rw [hF]; ring, by rw [hM]; ring⟩

end Verif
