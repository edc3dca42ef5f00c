import Verif.Spec.MUStall
import Verif.Lemmas.MUFrame
import Verif.Examples.FlatDerivs
import Verif.Thm.Stall

/-!
# `stall_onset` (C46, C47, C48)

`C46_sweep` and `C47_terminates_iff` hold for arbitrary solvers; `C46_stall_onset` and `C47_wings` are the statements for
the modelled lifting-line solver, where an angle is stalled or not independently of the sweep.
-/

namespace Verif
open V3 Act

variable {ι : Type} {B : Backend ι}

/-- `round(a, 2)` of the angles of the sweep -/
theorem round2_tenth (k : ℕ) : round2 (k / 10) = k / 10 := by
  unfold round2
  have : (100 : ℝ) * (k / 10) + 1 / 2 = ((10 * k : ℕ) : ℝ) + 1 / 2 := by push_cast; ring
  rw [this]
  have h : ⌊((10 * k : ℕ) : ℝ) + 1 / 2⌋ = ((10 * k : ℕ) : ℤ) := by
    rw [Int.floor_eq_iff]
    constructor
    · push_cast; linarith
    · push_cast; linarith
  rw [h]
  push_cast
  ring

theorem setAlpha_at {w : World B} {d : AeroDict ι} (hd : w.aero = some d) (a : ℝ) :
    setAlpha a w = (.ok (), w.atAlpha a) := by
  unfold setAlpha World.atAlpha
  rw [setAero_some hd, hd]
  rfl

theorem atAlpha_some {w : World B} {d : AeroDict ι} (hd : w.aero = some d) (a : ℝ) :
    (w.atAlpha a).aero = some { d with alpha := some a } := by
  unfold World.atAlpha
  simp [hd]

theorem solve_some (ps : Option B.π) {w : World B} {d : AeroDict ι} (hd : w.aero = some d) (a : ℝ) :
    ∃ d', (muSolve ps (w.atAlpha a)).2.aero = some d' ∧ SameEntries B { d with alpha := some a } d' :=
  muSolve_aero (atAlpha_some hd a) rfl

/-- one step of the sweep -/
theorem stallLoop_step (ps : Option B.π) (fuel n : ℕ) {w : World B} {d : AeroDict ι} (hd : w.aero = some d) :
    stallLoop ps (fuel + 1) (n / 10) w =
      (let w' := (muSolve ps (w.atAlpha (n / 10))).2
      match (muSolve ps (w.atAlpha (n / 10))).1, B.stallLoc w'.st with
      | .ok r, some s => (.ok (some ⟨s.wing, s.span, n / 10, r.FL⟩), w')
      | .error .nonfinite, some _ => (.error .nonfinite, w')
      | .ok _, none => stallLoop ps fuel ((n + 1 : ℕ) / 10) w'
      | .error .nonfinite, none => stallLoop ps fuel ((n + 1 : ℕ) / 10) w'
      | .error e, _ => (.error e, w')) := by
  have hn : ((n : ℝ) / 10 + 0.1) = ((n + 1 : ℕ) : ℝ) / 10 := by push_cast; norm_num; ring
  rw [stallLoop, bind_of_ok (setAlpha_at hd _), bind_def]
  unfold tryFinite
  rcases hs : muSolve ps (w.atAlpha (n / 10)) with ⟨e | r, w'⟩
  · simp only
    cases e
    case nonfinite =>
      simp only [get_bind]
      rcases hl : B.stallLoc w'.st with _ | s
      · simp only [hn]
      · rfl
    all_goals
      rcases hl : B.stallLoc w'.st with _ | s <;> rfl
  · simp only [get_bind]
    rcases hl : B.stallLoc w'.st with _ | s
    · simp only [hn]
    · simp only [round2_tenth]
      rfl

/-- the sweep as a whole -/
theorem stallLoop_ok {ps : Option B.π} {fuel : ℕ} {n : ℕ} {w w' : World B} {d : AeroDict ι} {r : StallResult}
    (hd : w.aero = some d) (h : stallLoop ps fuel (n / 10) w = (.ok (some r), w')) :
    ∃ k < fuel, r.alpha = (n + k : ℕ) / 10 ∧ w' = sweep ps w n k ∧
      B.stallLoc w'.st = some ⟨r.wing, r.span⟩ ∧
      (∃ loads, muSolve ps (sweepAt ps w n k) = (.ok loads, w') ∧ r.lift = loads.FL) ∧
      ∀ j < k, B.stallLoc (sweep ps w n j).st = none := by
  induction fuel generalizing n w d with
  | zero => rw [stallLoop] at h; cases h
  | succ m ih =>
    rw [stallLoop_step ps m n hd] at h
    simp only at h
    obtain ⟨d', hd', -⟩ := solve_some ps hd (n / 10)
    have next : ∀ (hl : B.stallLoc (muSolve ps (w.atAlpha (n / 10))).2.st = none)
        (h : stallLoop ps m ((n + 1 : ℕ) / 10) (muSolve ps (w.atAlpha (n / 10))).2 = (.ok (some r), w')),
        ∃ k < m + 1, r.alpha = (n + k : ℕ) / 10 ∧ w' = sweep ps w n k ∧
          B.stallLoc w'.st = some ⟨r.wing, r.span⟩ ∧
          (∃ loads, muSolve ps (sweepAt ps w n k) = (.ok loads, w') ∧ r.lift = loads.FL) ∧
          ∀ j < k, B.stallLoc (sweep ps w n j).st = none := by
      intro hl h
      obtain ⟨k, hk, h1, h2, h3, h4, h5⟩ := ih hd' h
      refine ⟨k + 1, by omega, ?_, h2, h3, h4, fun j hj => ?_⟩
      · rw [h1]; congr 2; omega
      · cases j with
        | zero => exact hl
        | succ j => exact h5 j (by omega)
    rcases hs : (muSolve ps (w.atAlpha (n / 10))).1 with e | loads
    · rw [hs] at h
      cases e
      case nonfinite =>
        rcases hl : B.stallLoc (muSolve ps (w.atAlpha (n / 10))).2.st with _ | s
        · rw [hl] at h; exact next hl h
        · rw [hl] at h; simp at h
      all_goals simp at h
    · rw [hs] at h
      rcases hl : B.stallLoc (muSolve ps (w.atAlpha (n / 10))).2.st with _ | s
      · rw [hl] at h; exact next hl h
      · rw [hl] at h
        simp only [Prod.mk.injEq, Except.ok.injEq, Option.some.injEq] at h
        obtain ⟨rfl, rfl⟩ := h
        refine ⟨0, by omega, by simp, rfl, hl, ⟨loads, Prod.ext hs rfl, rfl⟩, fun j hj => by omega⟩

/-- **C46 for arbitrary solvers.** If `stall_onset` returns, the angle is `k/10` degrees for some `k`; solving at
`0, 0.1, …, (k-1)/10` in turn left no section stalled, the solve at `k/10` left a section stalled, namely the one
reported, and the lift reported is the lift of that solve. -/
theorem C46_sweep {ps : Option B.π} {fuel : ℕ} {w w' : World B} {d : AeroDict ι} {r : StallResult}
    (hd : w.aero = some d) (ht : d.truthy = true) (h : stallOnset ps fuel w = (.ok (some r), w')) :
    ∃ k : ℕ, r.alpha = k / 10 ∧
      (∀ j < k, B.stallLoc (sweep ps w 0 j).st = none) ∧
      B.stallLoc (sweep ps w 0 k).st = some ⟨r.wing, r.span⟩ ∧
      ∃ loads, muSolve ps (sweepAt ps w 0 k) = (.ok loads, sweep ps w 0 k) ∧ r.lift = loads.FL := by
  unfold stallOnset at h
  rw [get_bind, if_pos (by simp [aeroGiven, hd, ht])] at h
  have h' : stallLoop ps fuel ((0 : ℕ) / 10) w = (.ok (some r), w') := by simpa using h
  obtain ⟨k, hk, h1, h2, h3, h4, h5⟩ := stallLoop_ok hd h'
  subst h2
  exact ⟨k, by simpa using h1, h5, h3, h4⟩

/-- **C46, the call.** `stall_onset` of a plane with wings answers with what the sweep finds, and of a plane without wings never with a stall:
it raises `RuntimeError`, or writes "unstallable" to the file and answers with that. -/
theorem C46_call (ps : Option B.π) (filename : Option String) (fuel : ℕ) (w : World B) :
    (B.hasWings = true →
      (∀ r w', stallOnset ps fuel w = (.ok (some r), w') → (stallOnsetFile ps filename fuel w).1 = .ok (some (.stalled r))) ∧
      ∀ a, (stallOnsetFile ps filename fuel w).1 = .ok (some a) → ∃ r w', stallOnset ps fuel w = (.ok (some r), w') ∧ a = .stalled r) ∧
    (B.hasWings = false →
      (filename = none → stallOnsetFile ps filename fuel w = (.error .runtime, w)) ∧
      ∀ f, filename = some f →
        stallOnsetFile ps filename fuel w = (.ok (some .unstallable), { w with files := w.files ++ [(f, .error "unstallable")] })) := by
  refine ⟨fun hw => ?_, fun hw => ⟨?_, ?_⟩⟩
  · have e : stallOnsetFile ps filename fuel w = match stallOnset ps fuel w with
        | (.error e, w') => (.error e, w')
        | (.ok none, w') => (.ok none, w')
        | (.ok (some r), w') => (.ok (some (.stalled r)), (writeFile filename (.stall r) w').2) := by
      unfold stallOnsetFile
      rw [if_pos hw]
      rcases h : stallOnset ps fuel w with ⟨e | r, w'⟩
      · rw [bind_of_error h]
      · rw [bind_of_ok h]
        cases r
        · rfl
        · cases filename <;> rfl
    refine ⟨fun r w' h => by rw [e, h], fun a h => ?_⟩
    rw [e] at h
    rcases hs : stallOnset ps fuel w with ⟨er | r, w'⟩
    · rw [hs] at h; simp at h
    · rw [hs] at h
      cases r with
      | none => simp at h
      | some r => simp only [Except.ok.injEq, Option.some.injEq] at h; exact ⟨r, w', rfl, h.symm⟩
  · rintro rfl
    unfold stallOnsetFile
    rw [if_neg (by simp [hw])]
    rfl
  · rintro f rfl
    unfold stallOnsetFile
    rw [if_neg (by simp [hw])]
    rfl

/-- **C47 for arbitrary solvers: exactly when it terminates.** The sweep ends iff one of the solves of the sweep finds a
stalled section or raises an exception.  (A solve producing `nan` does neither.) -/
theorem stallLoop_terminates_iff (ps : Option B.π) (n : ℕ) {w : World B} {d : AeroDict ι} (hd : w.aero = some d) :
    (∃ fuel, (stallLoop ps fuel (n / 10) w).1 ≠ .ok none) ↔
    ∃ k, B.stallLoc (sweep ps w n k).st ≠ none ∨
      ∃ e, (muSolve ps (sweepAt ps w n k)).1 = .error e ∧ e ≠ .nonfinite := by
  constructor
  · rintro ⟨fuel, h⟩
    induction fuel generalizing n w d with
    | zero => exact absurd rfl h
    | succ m ih =>
      rw [stallLoop_step ps m n hd] at h
      simp only at h
      obtain ⟨d', hd', -⟩ := solve_some ps hd (n / 10)
      by_cases hl : B.stallLoc (muSolve ps (w.atAlpha (n / 10))).2.st = none
      · rw [hl] at h
        have step : ∀ (h : (stallLoop ps m ((n + 1 : ℕ) / 10) (muSolve ps (w.atAlpha (n / 10))).2).1 ≠ .ok none),
            ∃ k, B.stallLoc (sweep ps w n k).st ≠ none ∨
              ∃ e, (muSolve ps (sweepAt ps w n k)).1 = .error e ∧ e ≠ .nonfinite := by
          intro h
          obtain ⟨k, hk⟩ := ih (n + 1) hd' h
          exact ⟨k + 1, hk⟩
        rcases hs : (muSolve ps (w.atAlpha (n / 10))).1 with e | loads
        · rw [hs] at h
          cases e
          case nonfinite => exact step h
          all_goals exact ⟨0, .inr ⟨_, hs, by simp⟩⟩
        · rw [hs] at h; exact step h
      · exact ⟨0, .inl hl⟩
  · rintro ⟨k, hk⟩
    induction k generalizing n w d with
    | zero =>
      refine ⟨1, ?_⟩
      rw [stallLoop_step ps 0 n hd]
      simp only
      rcases hk with hl | ⟨e, he, hne⟩
      · have hl' : B.stallLoc (muSolve ps (w.atAlpha (n / 10))).2.st ≠ none := hl
        rcases hl0 : B.stallLoc (muSolve ps (w.atAlpha (n / 10))).2.st with _ | s
        · exact absurd hl0 hl'
        · rcases hs : (muSolve ps (w.atAlpha (n / 10))).1 with e | loads
          · cases e <;> simp
          · simp
      · have he' : (muSolve ps (w.atAlpha (n / 10))).1 = .error e := he
        rw [he']
        cases e
        case nonfinite => exact absurd rfl hne
        all_goals simp
    | succ k ih =>
      obtain ⟨d', hd', -⟩ := solve_some ps hd (n / 10)
      obtain ⟨fuel, hf⟩ := ih (n + 1) hd' hk
      refine ⟨fuel + 1, ?_⟩
      rw [stallLoop_step ps fuel n hd]
      simp only
      rcases hs : (muSolve ps (w.atAlpha (n / 10))).1 with e | loads <;>
        rcases hl0 : B.stallLoc (muSolve ps (w.atAlpha (n / 10))).2.st with _ | s
      · cases e
        case nonfinite => exact hf
        all_goals simp
      · cases e <;> simp
      · exact hf
      · simp

theorem C47_terminates_iff (ps : Option B.π) {w : World B} {d : AeroDict ι} (hd : w.aero = some d) (ht : d.truthy = true) :
    (∃ fuel, (stallOnset ps fuel w).1 ≠ .ok none) ↔
    ∃ k, B.stallLoc (sweep ps w 0 k).st ≠ none ∨
      ∃ e, (muSolve ps (sweepAt ps w 0 k)).1 = .error e ∧ e ≠ .nonfinite := by
  rw [← stallLoop_terminates_iff ps 0 hd]
  have : ∀ fuel, stallOnset ps fuel w = stallLoop ps fuel ((0 : ℕ) / 10) w := by
    intro fuel
    unfold stallOnset
    rw [get_bind, if_pos (by simp [aeroGiven, hd, ht])]
    simp
  simp only [this]

/-! ### wings only: an angle is stalled or not, whatever was solved before -/

section wings
variable {n : ℕ} {G : LLGeom (Fin n)} {Sw lat long : ℝ}

theorem findStall_some_iff (S : Fin n → Section) (cl : Fin n → ℝ) :
    (findStall S cl).isSome ↔ ∃ i, (S i).clMax < cl i := by
  unfold findStall
  split
  · rename_i h
    simp only [Option.isSome_none, Bool.false_eq_true, false_iff, not_exists]
    intro m hm
    have : m ∈ stalledSections S cl := List.mem_filter.2 ⟨List.mem_finRange m, by simpa using hm⟩
    rw [h] at this; simp at this
  · rename_i i t h
    simp only [Option.isSome_some, true_iff]
    have := (filter_finRange_head h).1
    exact ⟨i, by simpa using this⟩

/-- what a control argument leaves in the object -/
theorem processCtrl_ctrl_congr (G : LLGeom (Fin n)) {st st' : LLState (Fin n)} (c : Option CtrlDict)
    (h : st'.ctrl = st.ctrl) : (processCtrl G st' c).ctrl = (processCtrl G st c).ctrl := by
  unfold processCtrl
  cases c with
  | none => exact h
  | some d =>
    simp only
    split
    · rfl
    · exact h

theorem processCtrl_idem (G : LLGeom (Fin n)) {st st' : LLState (Fin n)} (c : Option CtrlDict)
    (h : st'.ctrl = (processCtrl G st c).ctrl) : (processCtrl G st' c).ctrl = (processCtrl G st c).ctrl := by
  unfold processCtrl at h ⊢
  cases c with
  | none => exact h
  | some d =>
    simp only at h ⊢
    split
    · rfl
    · rename_i hh; rw [if_neg hh] at h; exact h

theorem llSolve_keeps_ctrl (G : LLGeom (Fin n)) (st : LLState (Fin n)) (d : AeroDict (Fin n)) (c : Option CtrlDict) :
    (llSolve G st "linear" (some d) c).2.ctrl = st.ctrl ∨
    (llSolve G st "linear" (some d) c).2.ctrl = (processCtrl G st c).ctrl := by
  have hA : (processAero G st (some d)).2.ctrl = st.ctrl := by
    by_cases hd : d.truthy = true
    · have := processAero_explicit G st d hd
      cases ha : arrOf G d with
      | error e => rw [ha] at this; simp only at this; rw [this]
      | ok a => rw [ha] at this; obtain ⟨rt, this⟩ := this; rw [this]
    · simp only [processAero, if_neg hd, processAero.defaultAero]
  unfold llSolve
  rcases hp : processAero G st (some d) with ⟨e | _, st1⟩ <;> rw [hp] at hA
  · exact .inl hA
  · right
    have := processCtrl_ctrl_congr G c hA
    simp only
    rw [if_pos trivial]
    split <;> exact this

/-- a wing solution does not depend on what was solved before with the same control argument -/
theorem wingAt_after (st : LLState (Fin n)) (d : AeroDict (Fin n)) (c : Option CtrlDict) (a b : ℝ) :
    wingAt G (llSolve G st "linear" (some { d with alpha := some a }) c).2 d c b = wingAt G st d c b := by
  have ht : ∀ x : ℝ, ({ d with alpha := some x } : AeroDict (Fin n)).truthy = true := by
    intro x; simp [AeroDict.truthy]
  unfold wingAt
  rw [llSolve_aero _ _ _ _ (ht b), llSolve_aero _ _ _ _ (ht b)]
  rcases llSolve_keeps_ctrl G st { d with alpha := some a } c with h | h
  · rw [processCtrl_ctrl_congr G c h]
  · rw [processCtrl_idem G c h]

theorem wings_atAlpha {ps : Option Unit} {w : World (wingsBackend G Sw lat long)} {d : AeroDict (Fin n)}
    (hd : w.aero = some d) (a : ℝ) :
    (muSolve (B := wingsBackend G Sw lat long) ps (w.atAlpha a)).1 = (wingAt G w.st d w.ctrl a).map (·.total) ∧
    (muSolve (B := wingsBackend G Sw lat long) ps (w.atAlpha a)).2.st =
      (llSolve G w.st "linear" (some { d with alpha := some a }) w.ctrl).2 ∧
    (muSolve (B := wingsBackend G Sw lat long) ps (w.atAlpha a)).2.aero = some { d with alpha := some a } ∧
    (muSolve (B := wingsBackend G Sw lat long) ps (w.atAlpha a)).2.ctrl = w.ctrl := by
  have ht : ({ d with alpha := some a } : AeroDict (Fin n)).truthy = true := by simp [AeroDict.truthy]
  rw [wings_muSolve (atAlpha_some hd a) ht]
  unfold wingAt
  have e1 : (w.atAlpha a).st = w.st := rfl
  have e2 : (w.atAlpha a).ctrl = w.ctrl := rfl
  rw [e1, e2]
  rcases llSolve G w.st "linear" (some { d with alpha := some a }) w.ctrl with ⟨e | R, st'⟩
  · exact ⟨rfl, rfl, atAlpha_some hd a, rfl⟩
  · exact ⟨by simp [Except.map, zero_add_loads], rfl, atAlpha_some hd a, rfl⟩

/-- the stall report after a solve of a wings-only plane -/
theorem wings_stallLoc (st : LLState (Fin n)) (d : AeroDict (Fin n)) (c : Option CtrlDict) (a : ℝ) :
    match wingAt G st d c a with
    | .ok R => (wingsBackend G Sw lat long).stallLoc (llSolve G st "linear" (some { d with alpha := some a }) c).2 =
        findStall G.S R.cl
    | .error .nonfinite =>
        (wingsBackend G Sw lat long).stallLoc (llSolve G st "linear" (some { d with alpha := some a }) c).2 = none
    | .error _ => True := by
  unfold wingAt
  rcases hs : llSolve G st "linear" (some { d with alpha := some a }) c with ⟨e | R, st'⟩
  · cases e
    case nonfinite =>
      simp only
      have hres : st'.results = none := by
        unfold llSolve at hs
        rcases hp : processAero G st (some { d with alpha := some a }) with ⟨e | _, st1⟩ <;> rw [hp] at hs
        · simp only [Prod.mk.injEq, Except.error.injEq] at hs
          obtain ⟨rfl, -⟩ := hs
          have ht : ({ d with alpha := some a } : AeroDict (Fin n)).truthy = true := by simp [AeroDict.truthy]
          have h := processAero_explicit G st _ ht
          cases ha : arrOf G { d with alpha := some a } with
          | error e =>
            rw [ha] at h; simp only at h; rw [hp] at h
            simp only [Prod.mk.injEq, Except.error.injEq] at h
            obtain ⟨rfl, -⟩ := h
            unfold arrOf at ha
            split at ha
            · simp at ha
            · split at ha <;> simp at ha
          | ok x => rw [ha] at h; obtain ⟨rt, h⟩ := h; rw [hp] at h; simp at h
        · simp only [if_pos trivial] at hs
          split at hs
          · simp at hs
          · simp at hs
          · simp only [Prod.mk.injEq] at hs
            rw [← hs.2]
      show st'.results.bind _ = none
      rw [hres]
      rfl
    all_goals trivial
  · simp only
    have := llSolve_ok hs
    obtain ⟨_, _, _, _, _, hr, _⟩ := this
    show st'.results.bind _ = _
    rw [hr]
    rfl

/-- the invariant of the sweep of a wings-only plane -/
structure Sweeping (d : AeroDict (Fin n)) (st0 : LLState (Fin n)) (c : Option CtrlDict)
    (w : World (wingsBackend G Sw lat long)) : Prop where
  aero : ∃ a, w.aero = some { d with alpha := a }
  ctrl : w.ctrl = c
  same : ∀ b, wingAt G w.st d c b = wingAt G st0 d c b

theorem Sweeping.step {d : AeroDict (Fin n)} {st0 : LLState (Fin n)} {c : Option CtrlDict} {ps : Option Unit}
    {w : World (wingsBackend G Sw lat long)} (h : Sweeping d st0 c w) (a : ℝ) :
    Sweeping d st0 c (muSolve ps (w.atAlpha a)).2 := by
  obtain ⟨⟨a0, ha⟩, hc, hsame⟩ := h
  obtain ⟨-, h2, h3, h4⟩ := wings_atAlpha (ps := ps) ha a
  refine ⟨⟨_, h3⟩, h4.trans hc, fun b => ?_⟩
  rw [h2, hc]
  exact (wingAt_after _ _ _ _ _).trans (hsame b)

theorem Sweeping.at {d : AeroDict (Fin n)} {st0 : LLState (Fin n)} {c : Option CtrlDict} {ps : Option Unit}
    {w : World (wingsBackend G Sw lat long)} (h : Sweeping d st0 c w) (m k : ℕ) :
    (muSolve ps (sweepAt ps w m k)).1 = (wingAt G st0 d c ((m + k : ℕ) / 10)).map (·.total) ∧
    (match wingAt G st0 d c ((m + k : ℕ) / 10) with
    | .ok R => (wingsBackend G Sw lat long).stallLoc (sweep ps w m k).st = findStall G.S R.cl
    | .error .nonfinite => (wingsBackend G Sw lat long).stallLoc (sweep ps w m k).st = none
    | .error _ => True) := by
  induction k generalizing m w with
  | zero =>
    obtain ⟨⟨a0, ha⟩, hc, hsame⟩ := h
    obtain ⟨h1, h2, h3, h4⟩ := wings_atAlpha (ps := ps) ha (m / 10)
    simp only [sweepAt, sweep]
    have key : wingAt G w.st { d with alpha := a0 } w.ctrl (m / 10) = wingAt G st0 d c ((m + 0 : ℕ) / 10) := by
      rw [hc]; exact hsame _
    refine ⟨by rw [h1, key], ?_⟩
    rw [h2]
    have := wings_stallLoc (Sw := Sw) (lat := lat) (long := long) (G := G) w.st { d with alpha := a0 } w.ctrl (m / 10)
    rw [key] at this
    exact this
  | succ k ih =>
    have := ih (h.step (ps := ps) (m / 10)) (m + 1)
    rw [show m + 1 + k = m + (k + 1) by omega] at this
    exact this

/-- **C46.** For a wings-only plane: if `stall_onset` returns `alpha`, then `alpha` is `k/10` degrees for some `k`, solving
at `alpha` (with the caller's other entries) gives a solution with a stalled section — the first of them is reported — and
the reported lift; and no solution at an earlier `j/10` has a stalled section. -/
theorem C46_stall_onset {ps : Option Unit} {fuel : ℕ} {w w' : World (wingsBackend G Sw lat long)}
    {d : AeroDict (Fin n)} {r : StallResult} (hd : w.aero = some d) (ht : d.truthy = true)
    (h : stallOnset ps fuel w = (.ok (some r), w')) :
    ∃ k : ℕ, r.alpha = k / 10 ∧
      (∃ R, wingAt G w.st d w.ctrl (k / 10) = .ok R ∧ SomeSectionStalled G R ∧ r.lift = R.total.FL ∧
        findStall G.S R.cl = some ⟨r.wing, r.span⟩) ∧
      ∀ j < k, ∀ R, wingAt G w.st d w.ctrl (j / 10) = .ok R → ¬ SomeSectionStalled G R := by
  obtain ⟨k, h1, h2, h3, loads, h4, h5⟩ := C46_sweep hd ht h
  have hsw : Sweeping (G := G) d w.st w.ctrl w := ⟨⟨d.alpha, hd⟩, rfl, fun _ => rfl⟩
  refine ⟨k, h1, ?_, fun j hj R hR hst => ?_⟩
  · obtain ⟨e1, e2⟩ := hsw.at (ps := ps) 0 k
    rw [Nat.zero_add] at e1 e2
    rw [h4] at e1
    rcases hw : wingAt G w.st d w.ctrl (k / 10) with e | R
    · rw [hw] at e1; simp [Except.map] at e1
    · rw [hw] at e1 e2
      simp only [Except.map, Except.ok.injEq] at e1
      simp only [h3] at e2
      refine ⟨R, rfl, ?_, by rw [h5, e1], e2.symm⟩
      exact (findStall_some_iff G.S R.cl).1 (by rw [← e2]; rfl)
  · obtain ⟨-, e2⟩ := hsw.at (ps := ps) 0 j
    rw [Nat.zero_add, hR] at e2
    simp only [h2 j hj] at e2
    have := (findStall_some_iff G.S R.cl).2 hst
    rw [← e2] at this
    simp at this

/-- C46_call: both kinds of plane exist; the wings-only ones of this file have wings -/
example : (wingsBackend G Sw lat long).hasWings = true := rfl

/-- **C47, exactly when it terminates.** For a wings-only plane `stall_onset` ends iff at some angle `k/10` a section is
stalled or the solver raises an exception. -/
theorem C47_wings_partial {ps : Option Unit} {w : World (wingsBackend G Sw lat long)}
    {d : AeroDict (Fin n)} (hd : w.aero = some d) (ht : d.truthy = true) :
    (∃ fuel, (stallOnset ps fuel w).1 ≠ .ok none) ↔
    ∃ k : ℕ, (∃ R, wingAt G w.st d w.ctrl (k / 10) = .ok R ∧ SomeSectionStalled G R) ∨
      ∃ e, wingAt G w.st d w.ctrl (k / 10) = .error e ∧ e ≠ .nonfinite := by
  rw [C47_terminates_iff ps hd ht]
  have hsw : Sweeping (G := G) d w.st w.ctrl w := ⟨⟨d.alpha, hd⟩, rfl, fun _ => rfl⟩
  refine exists_congr fun k => ?_
  obtain ⟨e1, e2⟩ := hsw.at (ps := ps) 0 k
  rw [Nat.zero_add] at e1 e2
  rw [e1]
  rcases hw : wingAt G w.st d w.ctrl (k / 10) with e | R
  · rw [hw] at e2
    cases e
    case nonfinite =>
      simp only at e2
      simp [e2, Except.map]
    all_goals simp [Except.map]
  · rw [hw] at e2
    simp only at e2
    have := findStall_some_iff G.S R.cl
    rw [← e2, Option.isSome_iff_ne_none] at this
    simp only [Except.map, Except.ok.injEq, exists_eq_left', reduceCtorEq, false_and, exists_false, or_false]
    exact this

/-- **C48 fails, in general.** After `stall_onset` returned, the caller's angle of attack is the stall angle. -/
theorem C48_stall_alpha {ps : Option Unit} {fuel : ℕ} {w w' : World (wingsBackend G Sw lat long)}
    {d : AeroDict (Fin n)} {r : StallResult} (hd : w.aero = some d) (ht : d.truthy = true)
    (h : stallOnset ps fuel w = (.ok (some r), w')) : w'.aero = some { d with alpha := some r.alpha } := by
  have h0 := h
  unfold stallOnset at h
  rw [get_bind, if_pos (by simp [aeroGiven, hd, ht])] at h
  have h' : stallLoop ps fuel ((0 : ℕ) / 10) w = (.ok (some r), w') := by simpa using h
  obtain ⟨k, hk, h1, h2, -⟩ := stallLoop_ok hd h'
  have key : ∀ (k m : ℕ) (w : World (wingsBackend G Sw lat long)) (a : Option ℝ), w.aero = some { d with alpha := a } →
      (sweep ps w m k).aero = some { d with alpha := some ((m + k : ℕ) / 10) } := by
    intro k
    induction k with
    | zero =>
      intro m w a hw
      exact (wings_atAlpha (ps := ps) hw (m / 10)).2.2.1
    | succ k ih =>
      intro m w a hw
      have := ih (m + 1) _ _ (wings_atAlpha (ps := ps) hw (m / 10)).2.2.1
      rw [show m + 1 + k = m + (k + 1) by omega] at this
      exact this
  rw [h2, key k 0 w d.alpha hd, h1]

end wings

/-- **C48, the part that holds.** `target_lift` and `stall_airspeed` leave the caller's dictionaries exactly as they were,
whether they return or raise, for arbitrary solvers; missing: `stall_onset`, `find_aero_center` and `pitch_trim`, for which
the claim is false. -/
theorem C48_copies_partial (ps : Option B.π) (w : World B) :
    (∀ L error filename, (targetLift ps L error filename w).2.aero = w.aero ∧
      (targetLift ps L error filename w).2.ctrl = w.ctrl) ∧
    (∀ weight error filename fuel sweep, (stallAirspeed ps weight error filename fuel sweep w).2.aero = w.aero ∧
      (stallAirspeed ps weight error filename fuel sweep w).2.ctrl = w.ctrl) :=
  ⟨fun _ _ _ => ⟨keeps_targetLift_aero w, keeps_targetLift_ctrl w⟩,
    fun _ _ _ _ _ => ⟨keeps_stallAirspeed_aero w, keeps_stallAirspeed_ctrl w⟩⟩

/-! ### concrete cases -/

/-- a wing without lift never stalls: every solve succeeds with zero section lift, or produces `nan` -/
theorem flat_wingAt (st : LLState (Fin 2)) (c : Option CtrlDict) (a : ℝ) :
    (∃ R, wingAt flatGeom st { Vmag := some 10, rho := some 1 } c a = .ok R ∧ ∀ i, R.cl i = 0) ∨
    wingAt flatGeom st { Vmag := some 10, rho := some 1 } c a = .error .nonfinite := by
  unfold wingAt
  rw [llSolve_aero _ _ _ _ (by simp [AeroDict.truthy])]
  unfold arrOf
  simp only [Option.getD_some, Option.getD_none]
  rcases hf : freestream 10 a 0 with _ | w
  · right
    simp [rotArr, AeroDict.hasRates, kern]
  · simp only [Option.map_some, Option.bind_some, normalise]
    by_cases hw : nrm w = 0
    · right
      simp [rotArr, AeroDict.hasRates, kern, hw]
    · simp only [rotArr, AeroDict.hasRates, if_neg hw, kern]
      by_cases hx : w.x = 0
      · right
        have hns : solveLinear flatGeom.cg flatGeom.S ⟨fun _ => w, unit w, fun _ => 1⟩ (processCtrl flatGeom st c).ctrl =
            .error .divZero := by
          unfold solveLinear
          rw [if_pos]
          rintro ⟨-, h⟩
          refine h 0 ?_
          simp [flatGeom, flatSec, dot, hx]
        simp [hns, LLErr.toPy]
      · left
        have hux : (unit w).x ≠ 0 := by
          simp only [unit, smul_x]
          exact mul_ne_zero (one_div_ne_zero hw) hx
        have := flat_solveLinear (F := ⟨fun _ => w, unit w, fun _ => 1⟩) (processCtrl flatGeom st c).ctrl (nrm_unit hw) hux
          (fun _ => hx)
        refine ⟨solOf flatGeom.cg flatGeom.S ⟨fun _ => w, unit w, fun _ => 1⟩ (processCtrl flatGeom st c).ctrl 0, ?_,
          fun i => flat_cl _ _ _ i⟩
        simp [this]

/-- the flat wing at 10 per second -/
noncomputable def flatWorld : World flatB := freshWorld flatGeom 2 2 1 (some { Vmag := some 10, rho := some 1 }) none

/-- **C47 fails.** For the wing without lift `stall_onset` goes on for ever: it has not ended after any number of solves. -/
theorem C47_refuted : ∀ fuel, (stallOnset none fuel flatWorld).1 = .ok none := by
  have hd : flatWorld.aero = some { Vmag := some 10, rho := some 1 } := rfl
  have := (C47_wings_partial (ps := none) (w := flatWorld) hd (by simp [AeroDict.truthy])).not
  simp only [not_exists, not_not] at this
  refine this.2 fun k hk => ?_
  rcases hk with ⟨R, hR, i, hi⟩ | ⟨e, he, hne⟩
  · rcases flat_wingAt flatWorld.st flatWorld.ctrl (k / 10) with ⟨R', hR', hcl⟩ | h
    · have e := hR.symm.trans hR'
      simp only [Except.ok.injEq] at e
      subst e
      rw [hcl i] at hi
      have : (flatGeom.S i).clMax = 7 / 5 := by fin_cases i <;> rfl
      rw [this] at hi
      norm_num at hi
    · have e := hR.symm.trans h
      simp at e
  · rcases flat_wingAt flatWorld.st flatWorld.ctrl (k / 10) with ⟨R', hR', -⟩ | h
    · have e := he.symm.trans hR'
      simp at e
    · have e := he.symm.trans h
      simp only [Except.error.injEq] at e
      exact hne e

/-- the example wing with an airfoil that stalls early -/
noncomputable def stallGeom : LLGeom (Fin 2) where
  cg := exGeom.cg
  S := fun i => { exGeom.S i with clMax := 1 / 10 }

/-- the wing with `alpha = 3` in the caller's dictionary -/
noncomputable def stallWorld : World (wingsBackend stallGeom 2 2 1) :=
  freshWorld stallGeom 2 2 1 (some { exAero with alpha := some 3 }) (some exCtrl)

open Classical in
/-- the solution does not depend on the maximum lift coefficients -/
theorem solveLinear_clMax (cg : V3) (S : Fin n → Section) (m : Fin n → ℝ) (F : Flow (Fin n)) (C : Ctrl (Fin n)) :
    solveLinear cg (fun i => { S i with clMax := m i }) F C = solveLinear cg S F C := by
  obtain ⟨S', hS'⟩ : ∃ S', S' = fun i => ({ S i with clMax := m i } : Section) := ⟨_, rfl⟩
  have h1 : InfluenceDefined S' F.u = InfluenceDefined S F.u := by subst hS'; rfl
  have h2 : RhsDefined S' F = RhsDefined S F := by subst hS'; rfl
  have h3 : aMat S' F = aMat S F := by subst hS'; rfl
  have h4 : bVec S' F C = bVec S F C := by subst hS'; rfl
  have h5 : ∀ γ, vInd S' F γ = vInd S F γ := by subst hS'; exact fun _ => rfl
  have h6 : ∀ γ, solOf cg S' F C γ = solOf cg S F C γ := by
    intro γ
    unfold solOf
    rw [h5]
    subst hS'
    rfl
  rw [← hS']
  unfold solveLinear
  refine if_congr (by rw [h1, h2]) rfl (if_congr (by rw [h3]) rfl ?_)
  exact if_congr (by rw [h3, h4, h5]) rfl (by rw [h3, h4, h6])

theorem stall_wingAt (st : LLState (Fin 2)) : wingAt stallGeom st { exAero with alpha := some 3 } (some exCtrl) 0 =
    .ok exSol := by
  unfold wingAt
  rw [llSolve_explicit _ _ _ _ (by simp [AeroDict.truthy]) exCtrl_truthy]
  have h1 : arrOf stallGeom { exAero with alpha := some 0 } = .ok ⟨some exFlow.v, some exFlow.u, exFlow.rho⟩ := by
    simp [arrOf, exAero, rotArr, AeroDict.hasRates, ex_freestream, ex_normalise, exFlow]
  have h2 : ctrlOf stallGeom exCtrl = exC := by
    simp [ctrlOf, exCtrl, exC, deflEff]
    funext i; rw [if_neg (by norm_num)]
  have h : solveLinear stallGeom.cg stallGeom.S ⟨exFlow.v, exFlow.u, exFlow.rho⟩ exC = .ok exSol :=
    (solveLinear_clMax _ _ _ _ _).trans ex_solveLinear
  rw [h2]
  have h1' := h1
  simp only [kern] at *
  rw [h1]
  simp only [h]

theorem exSol_cl (i : Fin 2) : 1 / 10 < exSol.cl i := by
  have h1 : exSol.cl i = secCl exGeom.S (alphas exGeom.S (vInd exGeom.S exFlow (fun _ => exGamma))) i := rfl
  have h2 : alphas exGeom.S (vInd exGeom.S exFlow (fun _ => exGamma)) i =
      Real.arctan (-(exGamma * (2 / (3 * Real.pi))) / 10) := by
    unfold alphas
    rw [ex_vInd]
    have e1 : dot ⟨-10, 0, exGamma * (2 / (3 * Real.pi))⟩ (exGeom.S i).un = -(exGamma * (2 / (3 * Real.pi))) := by
      fin_cases i <;> simp [exGeom, exSec, dot]
    have e2 : dot ⟨-10, 0, exGamma * (2 / (3 * Real.pi))⟩ (exGeom.S i).ua = 10 := by
      fin_cases i <;> simp [exGeom, exSec, dot]
    rw [e1, e2]
    unfold arctan2
    rw [Complex.arg_of_re_nonneg (by norm_num), Real.arctan_eq_arcsin]
    congr 1
    have h1 : ‖(⟨10, -(exGamma * (2 / (3 * Real.pi)))⟩ : ℂ)‖ =
        10 * Real.sqrt (1 + (-(exGamma * (2 / (3 * Real.pi))) / 10) ^ 2) := by
      rw [Complex.norm_eq_sqrt_sq_add_sq]
      rw [show ((10:ℝ) ^ 2 + (-(exGamma * (2 / (3 * Real.pi)))) ^ 2) =
        10 ^ 2 * (1 + (-(exGamma * (2 / (3 * Real.pi))) / 10) ^ 2) by ring]
      rw [Real.sqrt_mul (by norm_num), Real.sqrt_sq (by norm_num)]
    rw [h1]
    have : 0 < Real.sqrt (1 + (-(exGamma * (2 / (3 * Real.pi))) / 10) ^ 2) := Real.sqrt_pos.2 (by positivity)
    field_simp
  have hg : exGamma * (2 / (3 * Real.pi)) ≤ 32 / 100 := by
    have hpi := Real.pi_gt_three
    unfold exGamma
    rw [show 30 / (40 / Real.pi + 20) * (2 / (3 * Real.pi)) = 1 / (2 + Real.pi) by field_simp; ring]
    rw [div_le_iff₀ (by linarith)]
    linarith
  have hat : -(32 / 1000) ≤ Real.arctan (-(exGamma * (2 / (3 * Real.pi))) / 10) := by
    have hp := exGamma_pos
    have h0 : 0 ≤ exGamma * (2 / (3 * Real.pi)) / 10 := by positivity
    have : Real.arctan (exGamma * (2 / (3 * Real.pi)) / 10) ≤ exGamma * (2 / (3 * Real.pi)) / 10 := by
      have := Real.le_tan (Real.arctan_nonneg.2 h0) (Real.arctan_lt_pi_div_two _)
      rwa [Real.tan_arctan] at this
    rw [neg_div, Real.arctan_neg]
    linarith
  rw [h1]
  unfold secCl
  rw [h2]
  fin_cases i <;> simp [exGeom, exSec, exAf, lerp] <;> linarith

/-- **C48 fails.** `stall_onset` returns for the example wing, and the caller's `alpha` has changed from 3 to 0. -/
theorem C48_refuted : ∃ r w', stallOnset none 1 stallWorld = (.ok (some r), w') ∧
    stallWorld.aero = some { exAero with alpha := some 3 } ∧ w'.aero = some { exAero with alpha := some 0 } := by
  have hd : stallWorld.aero = some { exAero with alpha := some 3 } := rfl
  have ht : ({ exAero with alpha := some 3 } : AeroDict (Fin 2)).truthy = true := by simp [AeroDict.truthy]
  have hsw : Sweeping (G := stallGeom) { exAero with alpha := some 3 } stallWorld.st stallWorld.ctrl stallWorld :=
    ⟨⟨_, hd⟩, rfl, fun _ => rfl⟩
  have hw : wingAt stallGeom stallWorld.st { exAero with alpha := some 3 } stallWorld.ctrl ((0 + 0 : ℕ) / 10) = .ok exSol := by
    rw [show (((0 + 0 : ℕ) : ℝ) / 10) = 0 by simp]
    exact stall_wingAt stallWorld.st
  obtain ⟨e1, e2⟩ := hsw.at (ps := none) 0 0
  rw [hw] at e1 e2
  simp only at e2
  obtain ⟨s, hs⟩ := Option.isSome_iff_exists.1 ((findStall_some_iff stallGeom.S exSol.cl).2 ⟨0, exSol_cl 0⟩)
  rw [hs] at e2
  have hrun : stallOnset none 1 stallWorld = (.ok (some ⟨s.wing, s.span, ((0 : ℕ) : ℝ) / 10, exSol.total.FL⟩),
      sweep none stallWorld 0 0) := by
    unfold stallOnset
    rw [get_bind, if_pos (by simp [aeroGiven, hd, ht])]
    have hstep := stallLoop_step (B := wingsBackend stallGeom 2 2 1) none 0 0 hd
    simp only at hstep
    simp only [sweep, sweepAt] at e1 e2
    rw [show (none : Option (wingsBackend stallGeom 2 2 1).π) = (none : Option Unit) from rfl] at hstep
    erw [e1, e2] at hstep
    simp only [Except.map] at hstep
    rw [show (0 : ℝ) = ((0 : ℕ) : ℝ) / 10 by simp]
    exact hstep
  refine ⟨_, _, hrun, hd, ?_⟩
  have := C48_stall_alpha hd ht hrun
  rw [this]
  simp

end Verif
