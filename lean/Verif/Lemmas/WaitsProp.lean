import Verif.Lemmas.Waits

/-! # Propeller analyses with a larger bound on the passes of their loops -/

namespace Verif
open V3 Act

variable {ι : Type} (M : PropM ι)

namespace Ends

theorem same {S α : Type} (m : Act S α) : Ends Eq m m := by
  rintro s s' rfl _
  exact ⟨rfl, rfl⟩

theorem eiLoop (einf : ℕ → ℝ) : ∀ (fuel fuel' k : ℕ) (x0 x1 x2 y0 y1 : ℕ → ℝ), fuel ≤ fuel' →
    Ends Eq (eiLoop M einf fuel k x0 x1 x2 y0 y1) (Verif.eiLoop M einf fuel' k x0 x1 x2 y0 y1) := by
  intro fuel
  induction fuel with
  | zero => intro fuel' k x0 x1 x2 y0 y1 _ s s' _ hn; exact absurd rfl hn
  | succ n ih =>
    intro fuel' k x0 x1 x2 y0 y1 h
    obtain ⟨n', rfl⟩ : ∃ n', fuel' = n' + 1 := ⟨fuel' - 1, by omega⟩
    unfold Verif.eiLoop
    exact ite (pure _) (bind (same _) fun y => ih _ _ _ _ _ _ _ (by omega))

theorem findEi {fuel fuel' : ℕ} (h : fuel ≤ fuel') (einf : ℕ → ℝ) : Ends Eq (findEi M fuel einf) (Verif.findEi M fuel' einf) := by
  unfold Verif.findEi
  refine getBind fun s s' hs => ?_
  subst hs
  exact bind (same _) fun y0 => bind (same _) fun y1 => eiLoop M einf _ _ _ _ _ _ _ _ h

theorem findCoefs (simps : List ℝ → List ℝ → ℝ) {fuel fuel' : ℕ} (h : fuel ≤ fuel') (J : ℝ) :
    Ends Eq (findCoefs M simps fuel J) (Verif.findCoefs M simps fuel' J) := by
  unfold Verif.findCoefs
  exact bind (same _) fun _ => bind (same _) fun _ => bind (findEi M h _) fun _ => bind (same _) fun _ => same _

theorem coefsAtRate (simps : List ℝ → List ℝ → ℝ) {fuel fuel' : ℕ} (h : fuel ≤ fuel') (V n : ℝ) :
    Ends Eq (coefsAtRate M simps fuel V n) (Verif.coefsAtRate M simps fuel' V n) := by
  unfold Verif.coefsAtRate
  exact bind (same _) fun _ => bind (same _) fun _ => findCoefs M simps h _

theorem powerDiff (simps : List ℝ → List ℝ → ℝ) {fuel fuel' : ℕ} (h : fuel ≤ fuel') (fl : PFlow) (P n : ℝ) :
    Ends Eq (powerDiff M simps fuel fl P n) (Verif.powerDiff M simps fuel' fl P n) := by
  unfold Verif.powerDiff
  exact bind (coefsAtRate M simps h _ _) fun _ => pure _

theorem torqueDiff (simps : List ℝ → List ℝ → ℝ) {fuel fuel' : ℕ} (h : fuel ≤ fuel') (fl : PFlow) (m : Motor) (thr n : ℝ) :
    Ends Eq (torqueDiff M simps fuel fl m thr n) (Verif.torqueDiff M simps fuel' fl m thr n) := by
  unfold Verif.torqueDiff
  exact bind (coefsAtRate M simps h _ _) fun _ => bind (same _) fun _ => pure _

theorem rateLoop {f f' : ℝ → Act PropSt (ℝ × Coefs)} (hf : ∀ x, Ends Eq (f x) (f' x)) : ∀ (fuel fuel' : ℕ) (x0 x1 y0 y1 : ℝ) (c : Coefs),
    fuel ≤ fuel' → Ends Eq (rateLoop f fuel x0 x1 y0 y1 c) (Verif.rateLoop f' fuel' x0 x1 y0 y1 c) := by
  intro fuel
  induction fuel with
  | zero => intro fuel' x0 x1 y0 y1 c _ s s' _ hn; exact absurd rfl hn
  | succ n ih =>
    intro fuel' x0 x1 y0 y1 c h
    obtain ⟨n', rfl⟩ : ∃ n', fuel' = n' + 1 := ⟨fuel' - 1, by omega⟩
    unfold Verif.rateLoop
    exact bind (same _) fun _ => ite (pure _) (bind (hf _) fun r => ih _ _ _ _ _ _ (by omega))

theorem findRate {f f' : ℝ → Act PropSt (ℝ × Coefs)} (hf : ∀ x, Ends Eq (f x) (f' x)) {fuel fuel' : ℕ} (h : fuel ≤ fuel') :
    Ends Eq (findRate f fuel) (Verif.findRate f' fuel') := by
  unfold Verif.findRate
  refine getBind fun s s' hs => ?_
  subst hs
  exact bind (hf _) fun r => ite (pure _) (bind (hf _) fun r1 => rateLoop hf _ _ _ _ _ _ _ h)

theorem driveCoefs (simps : List ℝ → List ℝ → ℝ) {fuel fuel' : ℕ} (h : fuel ≤ fuel') (fl : PFlow) (dr : Drive) :
    Ends Eq (driveCoefs M simps fuel fl dr) (Verif.driveCoefs M simps fuel' fl dr) := by
  unfold Verif.driveCoefs
  cases dr with
  | atJ J => exact findCoefs M simps h J
  | power P => exact bind (findRate (powerDiff M simps h fl P) h) fun r => bind (same _) fun _ => bind (same _) fun _ => pure _
  | motor thr =>
    cases M.motor with
    | none => exact raise _
    | some m => exact bind (findRate (torqueDiff M simps h fl m thr) h) fun r => bind (same _) fun _ => bind (same _) fun _ => pure _

theorem calcForces (simps : List ℝ → List ℝ → ℝ) {fuel fuel' : ℕ} (h : fuel ≤ fuel') (fl : PFlow) (dr : Drive) :
    Ends Eq (calcForces M simps fuel fl dr) (Verif.calcForces M simps fuel' fl dr) := by
  unfold Verif.calcForces
  exact bind (driveCoefs M simps h fl dr) fun c => ite (raise _) (same _)

theorem runProp (simps : List ℝ → List ℝ → ℝ) {fuel fuel' : ℕ} (h : fuel ≤ fuel') (aero : Option (AeroDict ι)) (s : PropDict) :
    Ends Eq (runProp simps fuel M aero s) (Verif.runProp simps fuel' M aero s) := by
  unfold Verif.runProp
  exact bind (same _) fun fl => bind (same _) fun dr => calcForces M simps h fl dr

theorem to_eq {S α : Type} {m m' : Act S α} (h : Ends Eq m m') {s : S} (hn : (m s).1 ≠ .error .recursion) : m' s = m s := by
  obtain ⟨h1, h2⟩ := h s s rfl hn
  exact Prod.ext h1 h2.symm

theorem propsLoop (simps : List ℝ → List ℝ → ℝ) {fuel fuel' : ℕ} (h : fuel ≤ fuel') (aero : Option (AeroDict ι)) (ps : PropDict) :
    ∀ (sls : List (PropSlot ι)) (acc : PropAcc), (propsLoop simps fuel aero ps sls acc).1 ≠ .error .recursion →
      Verif.propsLoop simps fuel' aero ps sls acc = Verif.propsLoop simps fuel aero ps sls acc := by
  intro sls
  induction sls with
  | nil => intro acc _; rfl
  | cons sl rest ih =>
    intro acc hn
    unfold Verif.propsLoop at hn ⊢
    cases hps : localPS ps sl.name with
    | error x => rfl
    | ok s =>
      rw [hps] at hn
      simp only at hn ⊢
      have hr : (Verif.runProp simps fuel sl.model aero s sl.st).1 ≠ .error .recursion := by
        intro e
        rcases hq : Verif.runProp simps fuel sl.model aero s sl.st with ⟨x | o, st⟩
        · rw [hq] at e hn; cases e; exact hn rfl
        · rw [hq] at e; cases e
      rw [(runProp sl.model simps h aero s).to_eq hr]
      rcases hq : Verif.runProp simps fuel sl.model aero s sl.st with ⟨x | o, st⟩
      · rfl
      · rw [hq] at hn
        simp only at hn ⊢
        rw [ih]
        intro e
        rcases hl : Verif.propsLoop simps fuel aero ps rest { F := acc.F + o.F, M := acc.M + o.M, last := some (o.T, o.l) } with ⟨x | o, st⟩
        · rw [hl] at e hn; cases e; exact hn rfl
        · rw [hl] at e; cases e

theorem propsForces (simps : List ℝ → List ℝ → ℝ) {fuel fuel' : ℕ} (h : fuel ≤ fuel') (aero : Option (AeroDict ι)) (ps : PropDict) :
    Ends Eq (propsForces simps fuel aero ps) (Verif.propsForces simps fuel' aero ps) := by
  rintro sls s' rfl hn
  unfold Verif.propsForces at hn ⊢
  rw [propsLoop simps h aero ps sls {}]
  · exact ⟨rfl, rfl⟩
  · intro e
    rcases hl : Verif.propsLoop simps fuel aero ps sls {} with ⟨x | o, st⟩
    · rw [hl] at e hn; cases e; exact hn rfl
    · rw [hl] at e; cases e

theorem propsSolve (simps : List ℝ → List ℝ → ℝ) {fuel fuel' : ℕ} (h : fuel ≤ fuel') (pts : Option (ι → V3)) (aero : Option (AeroDict ι))
    (ps : PropDict) : Ends Eq (propsSolve simps fuel pts aero ps) (Verif.propsSolve simps fuel' pts aero ps) := by
  unfold Verif.propsSolve
  exact bind (propsForces simps h aero ps) fun r => same _

end Ends

/-- a `MachUp` object with a larger bound -/
theorem waits (o : Analyser) (wings props : Bool) (cg : V3) (simps : List ℝ → List ℝ → ℝ) {fuel fuel' : ℕ} (h : fuel ≤ fuel')
    (bad : Act (LLState (Fin (sectionsOf o.wing)) × List (PropSlot (Fin (sectionsOf o.wing)))) (Option Loads)) (ps : Option PropDict) :
    Waits (o.backendOf wings props cg simps fuel bad) (o.backendOf wings props cg simps fuel' bad) Eq ps ps where
  wings := rfl
  props := rfl
  Sw := rfl
  lat := rfl
  long := rfl
  propSolve := by
    rintro d ⟨l, sls⟩ s' rfl hn
    unfold Analyser.backendOf at hn ⊢
    simp only at hn ⊢
    by_cases ho : o.slots.isSome = true
    · rw [if_pos ho] at hn
      rw [if_pos ho, if_pos ho]
      rw [(Ends.propsSolve simps h _ _ _).to_eq hn]
      exact ⟨rfl, rfl⟩
    · rw [if_neg ho, if_neg ho]
      exact ⟨rfl, rfl⟩
  wingSolve := fun d c => Ends.same _
  stall := by
    rintro s s' rfl
    rfl
  bad := Ends.same _

end Verif
