import Verif.Lemmas.Lock
import Verif.Model.AeroCenter

/-!
# The searches of two aircraft in lockstep

`Follow` relates the solvers of two aircraft with different sections, in related flight conditions and with related controls: they
fail alike, or give loads related by `X`, with lift and pitching moment `s` and `t` times as large.  Then the searches of the two
aircraft run in lockstep too.
-/

namespace Verif
open V3 Act

variable {ι ι' : Type} {B : Backend ι} {B' : Backend ι'} {K : B.σ → B'.σ → Prop} {Δ : AeroDict ι → AeroDict ι' → Prop}
  {Γ : CtrlDict → CtrlDict → Prop} {X : Loads → Loads → Prop} {Y : StallInfo → StallInfo → Prop} {s t : ℝ}
  {ps : Option B.π} {ps' : Option B'.π} {α β γ : Type}

/-- related arguments and solver states -/
structure Side2 (K : B.σ → B'.σ → Prop) (Δ : AeroDict ι → AeroDict ι' → Prop) (Γ : CtrlDict → CtrlDict → Prop) (w : World B)
    (w' : World B') : Prop where
  aero : ∃ d d', w.aero = some d ∧ w'.aero = some d' ∧ Δ d d'
  ctrl : Option.Rel Γ w.ctrl w'.ctrl
  st : K w.st w'.st

/-- see the head of the file -/
structure Follow (B : Backend ι) (B' : Backend ι') (K : B.σ → B'.σ → Prop) (Δ : AeroDict ι → AeroDict ι' → Prop)
    (Γ : CtrlDict → CtrlDict → Prop) (X : Loads → Loads → Prop) (Y : StallInfo → StallInfo → Prop) (s t : ℝ) (ps : Option B.π)
    (ps' : Option B'.π) : Prop where
  props : B'.hasProps = B.hasProps
  wings : B'.hasWings = B.hasWings
  prop : ∀ d d', Δ d d' → Lock K (fun r r' => X r.1.loads r'.1.loads ∧
    Option.Rel (fun f f' => ∀ e e', Δ e e' → Δ { e with localState := some f } { e' with localState := some f' }) r.2 r'.2)
      (B.propSolve d ps) (B'.propSolve d' ps')
  wing : ∀ d d' c c', Δ d d' → Option.Rel Γ c c' → Lock K (fun S S' => X S.total S'.total) (B.wingSolve d c) (B'.wingSolve d' c')
  stall : ∀ x x', K x x' → Option.Rel Y (B.stallLoc x) (B'.stallLoc x')
  zero : X Loads.zero Loads.zero
  add : ∀ a a' b b', X a a' → X b b' → X (a.add b) (a'.add b')
  lift : ∀ T T', X T T' → T'.FL = s * T.FL
  moment : ∀ T T', X T T' → T'.MY = t * T.MY
  given : ∀ d d', Δ d d' → d.truthy = true ∧ d'.truthy = true
  alpha : ∀ d d' x, Δ d d' → Δ { d with alpha := some x } { d' with alpha := some x }
  angle : ∀ d d', Δ d d' → d'.alpha = d.alpha
  elevator : ∀ c c' x, Γ c c' → Γ { c with elevator := some x } { c' with elevator := some x }
  deflection : ∀ c c', Γ c c' → c'.elevator = c.elevator ∧ c'.truthy = c.truthy
  neutral : Γ zeroCtrlDict zeroCtrlDict

namespace Follow

local notation "𝓡" => Side2 K Δ Γ

theorem setAero2 {f : AeroDict ι → AeroDict ι} {f' : AeroDict ι' → AeroDict ι'} (hf : ∀ d d', Δ d d' → Δ (f d) (f' d')) :
    Lock 𝓡 (fun _ _ => True) (setAero (B := B) f) (setAero (B := B') f') := by
  rintro ⟨st, a, c, o, F⟩ ⟨st', a', c', o', F'⟩ ⟨⟨d, d', h1, h2, hd⟩, h3, h5⟩
  simp only at h1 h2
  subst h1
  subst h2
  exact ⟨trivial, ⟨_, _, rfl, rfl, hf d d' hd⟩, h3, h5⟩

theorem setCtrl2 {f f' : CtrlDict → CtrlDict} (hf : ∀ c c', Γ c c' → Γ (f c) (f' c')) :
    Lock 𝓡 (fun _ _ => True) (setCtrl (B := B) f) (setCtrl (B := B') f') := by
  rintro ⟨st, a, c, o, F⟩ ⟨st', a', c', o', F'⟩ ⟨h1, h3, h5⟩
  simp only at h3
  cases h3 with
  | none => exact ⟨rfl, h1, .none, h5⟩
  | some h => exact ⟨trivial, h1, .some (hf _ _ h), h5⟩

theorem getAero2 {P : α → β → Prop} {f : AeroDict ι → α} {f' : AeroDict ι' → β} (hf : ∀ d d', Δ d d' → P (f d) (f' d')) :
    Lock 𝓡 P (getAero (B := B) f) (getAero (B := B') f') := by
  rintro ⟨st, a, c, o, F⟩ ⟨st', a', c', o', F'⟩ ⟨⟨d, d', h1, h2, hd⟩, h3, h5⟩
  simp only at h1 h2
  subst h1
  subst h2
  exact ⟨hf d d' hd, ⟨_, _, rfl, rfl, hd⟩, h3, h5⟩

theorem getCtrl2 {P : α → β → Prop} {f : CtrlDict → α} {f' : CtrlDict → β} (hf : ∀ c c', Γ c c' → P (f c) (f' c')) :
    Lock 𝓡 P (getCtrl (B := B) f) (getCtrl (B := B') f') := by
  rintro ⟨st, a, c, o, F⟩ ⟨st', a', c', o', F'⟩ ⟨h1, h3, h5⟩
  simp only at h3
  cases h3 with
  | none => exact ⟨rfl, h1, .none, h5⟩
  | some h => exact ⟨hf _ _ h, h1, .some h, h5⟩

theorem write2 (f : Option String) (doc : Doc ι) (doc' : Doc ι') :
    Lock 𝓡 (fun _ _ => True) (writeFile (B := B) f doc) (writeFile (B := B') f doc') := by
  intro w w' h
  cases f with
  | none => exact ⟨trivial, h⟩
  | some f => exact ⟨trivial, h.aero, h.ctrl, h.st⟩

theorem withAero2 {P : α → β → Prop} {d : AeroDict ι} {d' : AeroDict ι'} (hd : Δ d d') {m : Act (World B) α} {m' : Act (World B') β}
    (hm : Lock 𝓡 P m m') : Lock 𝓡 (fun x y => P x.1 y.1 ∧ Δ x.2 y.2) (withAero d m) (withAero d' m') := by
  intro w w' h
  have hk : Side2 K Δ Γ { w with aero := some d } { w' with aero := some d' } := ⟨⟨d, d', rfl, rfl, hd⟩, h.ctrl, h.st⟩
  obtain ⟨h1, h2⟩ := hm _ _ hk
  unfold withAero
  rcases hq : m { w with aero := some d } with ⟨e | a, w1⟩ <;> rcases hq' : m' { w' with aero := some d' } with ⟨e' | a', w1'⟩ <;>
    rw [hq, hq'] at h1 h2
  · exact ⟨h1, h.aero, h2.ctrl, h2.st⟩
  · exact h1.elim
  · exact h1.elim
  · refine ⟨⟨h1, ?_⟩, h.aero, h2.ctrl, h2.st⟩
    obtain ⟨x, x', hx, hx', hD⟩ := h2.aero
    simp only at hx hx'
    simp only [hx, hx', Option.getD_some]
    exact hD

theorem withCtrl2 {P : α → β → Prop} {c c' : CtrlDict} (hc : Γ c c') {m : Act (World B) α} {m' : Act (World B') β} (hm : Lock 𝓡 P m m') :
    Lock 𝓡 P (withCtrl c m) (withCtrl c' m') := by
  intro w w' h
  have hk : Side2 K Δ Γ { w with ctrl := some c } { w' with ctrl := some c' } := ⟨h.aero, .some hc, h.st⟩
  obtain ⟨h1, h2⟩ := hm _ _ hk
  exact ⟨h1, h2.aero, h.ctrl, h2.st⟩

theorem onSolver2 {P : α → β → Prop} {m : Act B.σ α} {m' : Act B'.σ β} (hm : Lock K P m m') : Lock 𝓡 P (onSolver m) (onSolver m') := by
  intro w w' h
  obtain ⟨h1, h2⟩ := hm _ _ h.st
  exact ⟨h1, h.aero, h.ctrl, h2⟩

theorem ite2 {P : β → γ → Prop} {p q : Prop} [Decidable p] [Decidable q] (hpq : q ↔ p) {m1 m2 : Act (World B) β} {m1' m2' : Act (World B') γ}
    (h1 : Lock 𝓡 P m1 m1') (h2 : Lock 𝓡 P m2 m2') : Lock 𝓡 P (if p then m1 else m2) (if q then m1' else m2') := by
  by_cases h : p
  · rw [if_pos h, if_pos (hpq.2 h)]; exact h1
  · rw [if_neg h, if_neg fun k => h (hpq.1 k)]; exact h2

theorem bindEq2 {P : β → γ → Prop} {m : Act (World B) α} {m' : Act (World B') α} {f : α → Act (World B) β} {f' : α → Act (World B') γ}
    (hm : Lock 𝓡 (fun a b => b = a) m m') (hf : ∀ a, Lock 𝓡 P (f a) (f' a)) : Lock 𝓡 P (m >>= f) (m' >>= f') :=
  hm.bind fun a a' h => by subst h; exact hf a'

theorem bindU2 {P : β → γ → Prop} {m : Act (World B) Unit} {m' : Act (World B') Unit} {f : Unit → Act (World B) β} {f' : Unit → Act (World B') γ}
    (hm : Lock 𝓡 (fun _ _ => True) m m') (hf : Lock 𝓡 P (f ()) (f' ())) : Lock 𝓡 P (m >>= f) (m' >>= f') :=
  hm.bind fun _ _ _ => hf

theorem isGiven (hT : Follow B B' K Δ Γ X Y s t ps ps') {w : World B} {w' : World B'} (h : 𝓡 w w') :
    aeroGiven w = true ∧ aeroGiven w' = true ∧ ctrlGiven w' = ctrlGiven w := by
  obtain ⟨d, d', h1, h2, hd⟩ := h.aero
  obtain ⟨g1, g2⟩ := hT.given d d' hd
  refine ⟨by simp [aeroGiven, h1, g1], by simp [aeroGiven, h2, g2], ?_⟩
  have hc := h.ctrl
  unfold ctrlGiven
  generalize w.ctrl = c at hc
  generalize w'.ctrl = c' at hc
  cases hc with
  | none => rfl
  | some h => simp [(hT.deflection _ _ h).2]

/-- the `aero_state` is given in both worlds -/
theorem given2 (hT : Follow B B' K Δ Γ X Y s t ps ps') {P : α → β → Prop} {m n : Act (World B) α} {m' n' : Act (World B') β}
    (hm : Lock 𝓡 P m m') :
    Lock 𝓡 P (get >>= fun w => if aeroGiven w = true then m else n) (get >>= fun w => if aeroGiven w = true then m' else n') := by
  intro w w' h
  obtain ⟨g1, g2, -⟩ := hT.isGiven h
  rw [get_bind, get_bind, if_pos g1, if_pos g2]
  exact hm w w' h

theorem props2 (hT : Follow B B' K Δ Γ X Y s t ps ps') {d : AeroDict ι} {d' : AeroDict ι'} (hd : Δ d d') :
    Lock 𝓡 (fun r r' => X ((r.map (·.loads)).getD Loads.zero) ((r'.map (·.loads)).getD Loads.zero)) (solveProps ps d) (solveProps ps' d') := by
  unfold solveProps
  refine ite2 (by rw [hT.props]) ?_ (Lock.pure hT.zero)
  refine (onSolver2 (hT.prop d d' hd)).bind fun ⟨r, f⟩ ⟨r', f'⟩ h => ?_
  obtain ⟨h1, h2⟩ := h
  simp only at h1 h2
  cases h2 with
  | none => exact bindU2 (Lock.ret trivial) (Lock.pure h1)
  | some h => exact bindU2 (setAero2 h) (Lock.pure h1)

theorem wings2 (hT : Follow B B' K Δ Γ X Y s t ps ps') :
    Lock 𝓡 (fun r r' => X ((r.map (·.total)).getD Loads.zero) ((r'.map (·.total)).getD Loads.zero)) (solveWings (B := B)) (solveWings (B := B')) := by
  unfold solveWings
  refine ite2 (by rw [hT.wings]) ?_ (Lock.pure hT.zero)
  refine Lock.get.bind fun w w' h => ?_
  obtain ⟨d, d', h1, h2, hd⟩ := h.aero
  rw [h1, h2]
  exact (onSolver2 (hT.wing d d' _ _ hd h.ctrl)).bind fun r r' hr => Lock.pure hr

theorem parts2 (hT : Follow B B' K Δ Γ X Y s t ps ps') : Lock 𝓡 (fun r r' => X r.2.2 r'.2.2) (solveParts (B := B) ps) (solveParts ps') := by
  unfold solveParts
  refine (getAero2 (P := Δ) fun d d' h => h).bind fun d d' hd => ?_
  refine (props2 hT hd).bind fun p p' hp => (wings2 hT).bind fun S S' hS => ?_
  refine Lock.bind (P := fun _ _ => True) (fun w w' h => ⟨trivial, h.aero, h.ctrl, h.st⟩) fun _ _ _ => Lock.pure ?_
  exact hT.add _ _ _ _ hp hS

theorem solve (hT : Follow B B' K Δ Γ X Y s t ps ps') : Lock 𝓡 X (muSolve (B := B) ps) (muSolve ps') := by
  unfold muSolve
  exact given2 hT ((parts2 hT).bind fun r r' h => Lock.pure h)

theorem solveFile2 (hT : Follow B B' K Δ Γ X Y s t ps ps') (f : Option String) : Lock 𝓡 X (muSolveFile (B := B) ps f) (muSolveFile ps' f) := by
  unfold muSolveFile
  exact given2 hT ((parts2 hT).bind fun r r' h => bindU2 (write2 _ _ _) (Lock.pure h))

theorem alpha2 (hT : Follow B B' K Δ Γ X Y s t ps ps') (x : ℝ) : Lock 𝓡 (fun _ _ => True) (setAlpha (B := B) x) (setAlpha (B := B') x) :=
  setAero2 fun d d' h => hT.alpha d d' x h

theorem elevator2 (hT : Follow B B' K Δ Γ X Y s t ps ps') (x : ℝ) :
    Lock 𝓡 (fun _ _ => True) (setElevator (B := B) x) (setElevator (B := B') x) :=
  setCtrl2 fun c c' h => hT.elevator c c' x h

theorem central2 (hT : Follow B B' K Δ Γ X Y s t ps ps') {set : ℝ → Act (World B) Unit} {set' : ℝ → Act (World B') Unit}
    (hs : ∀ x, Lock 𝓡 (fun _ _ => True) (set x) (set' x)) (x0 δ : ℝ) :
    Lock 𝓡 (fun r r' => X r.1 r'.1 ∧ X r.2 r'.2) (central ps set x0 δ) (central ps' set' x0 δ) := by
  unfold central
  exact bindU2 (hs _) ((solve hT).bind fun b b' hb => bindU2 (hs _) ((solve hT).bind fun f f' hf => Lock.pure ⟨hf, hb⟩))

/-! ### Stall -/

/-- what is the same about two reported stalls -/
def StallAlike (Y : StallInfo → StallInfo → Prop) (s : ℝ) (r r' : StallResult) : Prop :=
  r'.alpha = r.alpha ∧ r'.lift = s * r.lift ∧ Y ⟨r.wing, r.span⟩ ⟨r'.wing, r'.span⟩

theorem stallLoop2 (hT : Follow B B' K Δ Γ X Y s t ps ps') : ∀ (n : ℕ) (a : ℝ),
    Lock 𝓡 (Option.Rel (StallAlike Y s)) (stallLoop (B := B) ps n a) (stallLoop ps' n a) := by
  intro n
  induction n with
  | zero => intro a; exact Lock.ret .none
  | succ n ih =>
    intro a
    unfold stallLoop
    refine bindU2 (hT.alpha2 a) ((solve hT).tryFinite.bind fun r r' hr => ?_)
    refine Lock.get.bind fun w w' h => ?_
    have hst := hT.stall _ _ h.st
    generalize B.stallLoc w.st = x at hst
    generalize B'.stallLoc w'.st = x' at hst
    cases hst with
    | none => exact ih _
    | some hy =>
      cases hr with
      | none => exact Lock.raise _
      | some h => exact Lock.pure (.some ⟨rfl, hT.lift _ _ h, hy⟩)

theorem onset2 (hT : Follow B B' K Δ Γ X Y s t ps ps') (n : ℕ) :
    Lock 𝓡 (Option.Rel (StallAlike Y s)) (stallOnset (B := B) ps n) (stallOnset ps' n) := by
  unfold stallOnset
  exact given2 hT (stallLoop2 hT _ _)

/-- what is the same about two answers of `stall_onset` or `stall_airspeed` -/
def AnswerAlike (Y : StallInfo → StallInfo → Prop) (s : ℝ) : StallAnswer → StallAnswer → Prop
  | .stalled r, .stalled r' => StallAlike Y s r r'
  | .airspeed r v, .airspeed r' v' => StallAlike Y s r r' ∧ v' = v
  | .unstallable, .unstallable => True
  | _, _ => False

theorem onsetFile2 (hT : Follow B B' K Δ Γ X Y s t ps ps') (f : Option String) (n : ℕ) :
    Lock 𝓡 (Option.Rel (AnswerAlike Y s)) (stallOnsetFile (B := B) ps f n) (stallOnsetFile ps' f n) := by
  unfold stallOnsetFile
  refine ite2 (by rw [hT.wings]) ((onset2 hT n).bind fun r r' h => ?_) ?_
  · cases h with
    | none => exact Lock.pure .none
    | some h => exact bindU2 (write2 _ _ _) (Lock.pure (.some h))
  · cases f with
    | none => exact Lock.raise _
    | some f => exact bindU2 (write2 _ _ _) (Lock.pure (.some trivial))

theorem airspeedLoop2 (hT : Follow B B' K Δ Γ X Y 1 t ps ps')
    (hV : ∀ d d' x, Δ d d' → Δ { d with Vmag := some x } { d' with Vmag := some x }) (W e : ℝ) (k : ℕ) :
    ∀ (n : ℕ) (x0 y0 x1 y1 : ℝ) (r r' : StallResult) (d : AeroDict ι) (d' : AeroDict ι'), Δ d d' → StallAlike Y 1 r r' →
    Lock 𝓡 (Option.Rel fun a b => StallAlike Y 1 a.1 b.1 ∧ b.2 = a.2) (airspeedLoop (B := B) ps W e k n x0 y0 x1 y1 r d)
      (airspeedLoop ps' W e k n x0 y0 x1 y1 r' d') := by
  intro n
  induction n with
  | zero => intro x0 y0 x1 y1 r r' d d' _ _; exact Lock.ret .none
  | succ n ih =>
    intro x0 y0 x1 y1 r r' d d' hd hr
    unfold airspeedLoop
    refine ite2 Iff.rfl (Lock.raise _) (ite2 Iff.rfl (Lock.pure (.some ⟨hr, rfl⟩))
      ((withAero2 (hV _ _ _ hd) (onset2 hT k)).bind fun ⟨a, x⟩ ⟨a', x'⟩ h => ?_))
    obtain ⟨h1, h2⟩ := h
    simp only at h1 h2
    cases h1 with
    | none => exact Lock.pure .none
    | some h =>
      have := h.2.1
      rw [one_mul] at this
      simp only [this]
      exact ih _ _ _ _ _ _ _ _ h2 h

theorem airspeedBody2 (hT : Follow B B' K Δ Γ X Y 1 t ps ps')
    (hV : ∀ d d' x, Δ d d' → Δ { d with Vmag := some x } { d' with Vmag := some x }) (hV' : ∀ d d', Δ d d' → d'.Vmag = d.Vmag)
    (W e : ℝ) (n k : ℕ) :
    Lock 𝓡 (Option.Rel fun a b => StallAlike Y 1 a.1 b.1 ∧ b.2 = a.2) (airspeedBody (B := B) ps W e n k) (airspeedBody ps' W e n k) := by
  unfold airspeedBody
  refine (getAero2 (P := Δ) fun d d' h => h).bind fun d d' hd => ?_
  simp only [hV' d d' hd]
  refine bindEq2 (m := needKey d.Vmag) (m' := needKey d.Vmag) ?_ fun x0 => ?_
  · cases d.Vmag
    · exact Lock.raise _
    · exact Lock.ret rfl
  refine (withAero2 (hV _ _ _ hd) (onset2 hT k)).bind fun ⟨a, x⟩ ⟨a', x'⟩ h => ?_
  obtain ⟨h1, -⟩ := h
  simp only at h1
  refine (withAero2 (hV _ _ _ hd) (onset2 hT k)).bind fun ⟨b, y⟩ ⟨b', y'⟩ h => ?_
  obtain ⟨h2, h3⟩ := h
  simp only at h2 h3
  cases h1 with
  | none => cases h2 <;> exact Lock.pure .none
  | some h1 =>
    cases h2 with
    | none => exact Lock.pure .none
    | some h2 =>
      have e1 := h1.2.1
      have e2 := h2.2.1
      rw [one_mul] at e1 e2
      simp only [e1, e2]
      exact airspeedLoop2 hT hV _ _ _ _ _ _ _ _ _ _ _ _ h3 h2

theorem airspeed2 (hT : Follow B B' K Δ Γ X Y 1 t ps ps')
    (hV : ∀ d d' x, Δ d d' → Δ { d with Vmag := some x } { d' with Vmag := some x }) (hV' : ∀ d d', Δ d d' → d'.Vmag = d.Vmag)
    (W e : ℝ) (f : Option String) (n k : ℕ) :
    Lock 𝓡 (Option.Rel (AnswerAlike Y 1)) (stallAirspeed (B := B) ps W e f n k) (stallAirspeed ps' W e f n k) := by
  unfold stallAirspeed
  refine ite2 (by rw [hT.wings]) (given2 hT ((airspeedBody2 hT hV hV' W e n k).bind fun r r' h => ?_)) ?_
  · cases h with
    | none => exact Lock.pure .none
    | some h => exact bindU2 (write2 _ _ _) (Lock.pure (.some h))
  · cases f with
    | none => exact Lock.raise _
    | some f => exact bindU2 (write2 _ _ _) (Lock.pure (.some trivial))

/-! ### Target lift -/

/-- solves with an angle of attack that is `nan`/`inf` are alike too -/
def Bad2 (B : Backend ι) (B' : Backend ι') (K : B.σ → B'.σ → Prop) (s : ℝ) : Prop :=
  Lock K (fun r r' => r'.map (·.FL) = r.map fun T => s * T.FL) B.solveBad B'.solveBad

theorem liftAt2 (hT : Follow B B' K Δ Γ X Y s t ps ps') (hb : Bad2 B B' K s) {d : AeroDict ι} {d' : AeroDict ι'} (hd : Δ d d') (x : Option ℝ) :
    Lock 𝓡 (fun x y => y.1 = x.1.map (s * ·) ∧ Δ x.2 y.2) (liftAt (B := B) ps d x) (liftAt ps' d' x) := by
  cases x
  · exact (onSolver2 hb).bind fun r r' h => Lock.pure ⟨by rw [h]; cases r <;> rfl, hd⟩
  · refine (withAero2 (hT.alpha _ _ _ hd) (solve hT).tryFinite).bind fun ⟨a, x⟩ ⟨a', x'⟩ h => ?_
    obtain ⟨h1, h2⟩ := h
    refine Lock.pure ⟨?_, h2⟩
    cases h1 with
    | none => rfl
    | some h => simp only [Option.map_some, hT.lift _ _ h]

/-- the secant step does not depend on the unit of the lift -/
theorem secant_scaled (hs : s ≠ 0) (x0 y0 x1 y1 : Option ℝ) : secant x0 (y0.map (s * ·)) x1 (y1.map (s * ·)) = secant x0 y0 x1 y1 := by
  cases x0 <;> cases y0 <;> cases x1 <;> cases y1 <;> try rfl
  rename_i a b c d
  unfold secant
  simp only [Option.map_some, ← mul_sub, mul_eq_zero, hs, false_or]
  by_cases h : d - b = 0
  · rw [if_pos h, if_pos h]
  · rw [if_neg h, if_neg h]
    congr 2
    field_simp

theorem targetLoop2 (hT : Follow B B' K Δ Γ X Y s t ps ps') (hb : Bad2 B B' K s) (hs : s ≠ 0) (L e : ℝ) :
    ∀ (n : ℕ) (x0 y0 x1 y1 : Option ℝ) (d : AeroDict ι) (d' : AeroDict ι'), Δ d d' →
    Lock 𝓡 (fun a b => b = a) (targetLoop (B := B) ps L e n x0 y0 x1 y1 d)
      (targetLoop ps' (s * L) e n x0 (y0.map (s * ·)) x1 (y1.map (s * ·)) d') := by
  intro n
  induction n with
  | zero => intro x0 y0 x1 y1 d d' _; exact Lock.ret rfl
  | succ n ih =>
    intro x0 y0 x1 y1 d d' hd
    unfold targetLoop
    simp only [secant_scaled hs]
    refine ite2 Iff.rfl (Lock.pure rfl) ((liftAt2 hT hb hd _).bind fun ⟨a, x⟩ ⟨a', x'⟩ h => ?_)
    obtain ⟨h1, h2⟩ := h
    simp only at h1 h2
    subst h1
    refine ite2 Iff.rfl (Lock.pure rfl) ?_
    have := ih x1 y1 (secant x0 y0 x1 y1) (a.map (· - L)) x x' h2
    rw [show (a.map (· - L)).map (s * ·) = (a.map (s * ·)).map (· - s * L) by cases a <;> simp [mul_sub]] at this
    exact this

theorem targetBody2 (hT : Follow B B' K Δ Γ X Y s t ps ps') (hb : Bad2 B B' K s) (hs : s ≠ 0) (L e : ℝ) :
    Lock 𝓡 (fun a b => b = a) (targetBody (B := B) ps L e) (targetBody ps' (s * L) e) := by
  unfold targetBody
  refine (getAero2 (P := Δ) fun d d' h => h).bind fun d d' hd => ?_
  simp only [hT.angle d d' hd]
  refine bindEq2 (m := needKey d.alpha) (m' := needKey d.alpha) ?_ fun x0 => ?_
  · cases d.alpha
    · exact Lock.raise _
    · exact Lock.ret rfl
  refine (liftAt2 hT hb hd _).bind fun ⟨a, x⟩ ⟨a', x'⟩ h => (liftAt2 hT hb hd _).bind fun ⟨b, y⟩ ⟨b', y'⟩ h' => ?_
  obtain ⟨h, -⟩ := h
  obtain ⟨h1, h2⟩ := h'
  simp only at h h1 h2
  subst h
  subst h1
  have := targetLoop2 hT hb hs L e 21 (some x0) (a.map (· - L)) (some (x0 * 1.5 + 0.1)) (b.map (· - L)) y y' h2
  rw [show (a.map (· - L)).map (s * ·) = (a.map (s * ·)).map (· - s * L) by cases a <;> simp [mul_sub],
    show (b.map (· - L)).map (s * ·) = (b.map (s * ·)).map (· - s * L) by cases b <;> simp [mul_sub]] at this
  exact this

theorem target2 (hT : Follow B B' K Δ Γ X Y s t ps ps') (hb : Bad2 B B' K s) (hs : s ≠ 0) (L e : ℝ) (f : Option String) :
    Lock 𝓡 (fun a b => b = a) (targetLift (B := B) ps L e f) (targetLift ps' (s * L) e f) := by
  unfold targetLift
  refine given2 hT (bindEq2 (targetBody2 hT hb hs L e) fun r => ?_)
  rcases r with _ | a
  · cases f
    · exact Lock.raise _
    · exact bindU2 (write2 _ _ _) (Lock.pure rfl)
  · exact bindU2 (write2 _ _ _) (Lock.pure rfl)

/-! ### Pitch trim -/

theorem slopes2 (hT : Follow B B' K Δ Γ X Y s t ps ps') {f : Loads → ℝ} {x : ℝ} (hf : ∀ T T', X T T' → f T' = x * f T) :
    Lock 𝓡 (fun a b => b = (x * a.1, x * a.2)) (slopes (B := B) ps f) (slopes ps' f) := by
  unfold slopes
  refine bindEq2 (getAero2 fun d d' h => by rw [hT.angle d d' h]) fun a0 => (central2 hT hT.alpha2 _ _).bind fun r r' h => ?_
  refine bindU2 (hT.alpha2 _) (bindEq2 (getCtrl2 fun c c' h => by rw [(hT.deflection c c' h).1]) fun e0 =>
    (central2 hT hT.elevator2 _ _).bind fun q q' h' => bindU2 (hT.elevator2 _) (Lock.pure ?_))
  rw [hf _ _ h.1, hf _ _ h.2, hf _ _ h'.1, hf _ _ h'.2]
  ext <;> simp only <;> ring

theorem trimLoop2 (hT : Follow B B' K Δ Γ X Y s s ps ps') (hs : 0 < s) (L M e : ℝ) (f : Option String) : ∀ (n : ℕ) (a de : ℝ),
    Lock 𝓡 (fun a b => b = a) (trimLoop (B := B) ps L M e f n a de) (trimLoop ps' (s * L) (s * M) (s * e) f n a de) := by
  intro n
  induction n with
  | zero => intro a de; exact Lock.ret rfl
  | succ n ih =>
    intro a de
    unfold trimLoop
    refine bindU2 (hT.alpha2 _) (bindU2 (hT.elevator2 _) ((solve hT).bind fun T T' h => ?_))
    simp only [hT.lift _ _ h, hT.moment _ _ h, ← mul_sub, abs_mul, abs_of_pos hs, mul_lt_mul_iff_right₀ hs]
    refine ite2 Iff.rfl (bindU2 (write2 _ _ _) (Lock.pure rfl)) ?_
    refine (slopes2 hT hT.lift).bind fun ⟨La, Lde⟩ q h1 => (slopes2 hT hT.moment).bind fun ⟨ma, mde⟩ r h2 => ?_
    subst h1
    subst h2
    have hs' := hs.ne'
    refine ite2 (by simp [hs']) ?_ (ite2 ?_ (Lock.raise _) ?_)
    · cases f
      · exact Lock.raise _
      · exact bindU2 (write2 _ _ _) (Lock.pure rfl)
    · show s * La * (s * mde) - s * Lde * (s * ma) = 0 ↔ La * mde - Lde * ma = 0
      rw [show s * La * (s * mde) - s * Lde * (s * ma) = s * s * (La * mde - Lde * ma) by ring]
      simp [hs']
    · refine ite2 Iff.rfl ?_ ?_
      · cases f
        · exact Lock.raise _
        · exact bindU2 (write2 _ _ _) (Lock.pure rfl)
      · have e1 : ∀ x : ℝ, s * La * (s * mde) - s * Lde * (s * ma) = s ^ 2 * (La * mde - Lde * ma) := fun _ => by ring
        simp only
        rw [e1 0, show (s * mde * -(s * (T.FL - L)) - s * Lde * -(s * (T.MY - M))) / (s ^ 2 * (La * mde - Lde * ma)) =
            (mde * -(T.FL - L) - Lde * -(T.MY - M)) / (La * mde - Lde * ma) by
              rw [show s * mde * -(s * (T.FL - L)) - s * Lde * -(s * (T.MY - M)) = s ^ 2 * (mde * -(T.FL - L) - Lde * -(T.MY - M)) by ring,
                mul_div_mul_left _ _ (pow_ne_zero 2 hs')],
          show (-(s * ma) * -(s * (T.FL - L)) + s * La * -(s * (T.MY - M))) / (s ^ 2 * (La * mde - Lde * ma)) =
            (-ma * -(T.FL - L) + La * -(T.MY - M)) / (La * mde - Lde * ma) by
              rw [show -(s * ma) * -(s * (T.FL - L)) + s * La * -(s * (T.MY - M)) = s ^ 2 * (-ma * -(T.FL - L) + La * -(T.MY - M)) by ring,
                mul_div_mul_left _ _ (pow_ne_zero 2 hs')]]
        exact ih _ _

/-- `pitch_trim` with both states given -/
theorem trim2 (hT : Follow B B' K Δ Γ X Y s s ps ps') (hs : 0 < s) (L M e : ℝ) (f : Option String) {w : World B} {w' : World B'}
    (h : 𝓡 w w') (hc : ctrlGiven w = true ∨ s = 1) :
    Outcome (fun a b => b = a) (pitchTrim (B := B) ps L M e f w).1 (pitchTrim ps' (s * L) (s * M) (s * e) f w').1 ∧
      𝓡 (pitchTrim (B := B) ps L M e f w).2 (pitchTrim ps' (s * L) (s * M) (s * e) f w').2 := by
  obtain ⟨g1, g2, g3⟩ := hT.isGiven h
  unfold pitchTrim
  rw [get_bind, get_bind, if_pos g1, if_pos g2, g3]
  by_cases hw : ctrlGiven w = true
  · rw [if_pos hw, if_pos hw]
    exact trimLoop2 hT hs L M e f _ _ _ w w' h
  · rw [if_neg hw, if_neg hw]
    obtain rfl : s = 1 := hc.resolve_left hw
    have := trimLoop2 hT one_pos L M defaultError none 101 0 0
    rw [one_mul, one_mul, one_mul] at this
    rw [one_mul, one_mul]
    exact withCtrl2 hT.neutral this w w' h

/-! ### Aerodynamic centre -/

theorem sweep2 (hT : Follow B B' K Δ Γ X Y s t ps ps') : ∀ l : List ℝ,
    Lock 𝓡 (List.Forall₂ fun r r' => r'.1 = r.1 ∧ X r.2 r'.2) (acSweep (B := B) ps l) (acSweep ps' l) := by
  intro l
  induction l with
  | nil => exact Lock.pure .nil
  | cons x l ih =>
    unfold acSweep
    exact bindU2 (hT.alpha2 _) ((solve hT).bind fun r r' h => ih.bind fun rs rs' hs => Lock.pure (.cons ⟨rfl, h⟩ hs))

theorem orRaise2 {P : α → β → Prop} (e : PyErr) {o : Option α} {o' : Option β} (h : Option.Rel P o o') :
    Lock 𝓡 P (Act.orRaise e o) (Act.orRaise e o') := by
  cases h with
  | none => exact Lock.raise _
  | some h => exact Lock.ret h

/-- the points at which `find_aero_center` puts the aerodynamic centre, relative to the CG -/
def CenterAlike (l : ℝ) (cg cg' r r' : V3) : Prop := r'.x - cg'.x = l * (r.x - cg.x) ∧ (r.y = 0 ∧ r'.y = 0) ∧ r'.z - cg'.z = l * (r.z - cg.z)

theorem Option.rel_of_eq (o : Option α) : Option.Rel (fun a b => b = a) o o := by cases o <;> constructor; rfl

theorem acPoint_scaled {q long l : ℝ} {B' : ℝ} (hs : s ≠ 0) (hl : l ≠ 0) {r r' : ℝ × Loads} (h : r'.1 = r.1)
    (hF : r'.2.FX = s * r.2.FX ∧ r'.2.FZ = s * r.2.FZ) (hM : r'.2.MY = t * r.2.MY) (ht : t = s * l) (hlong : B' = l * long) :
    acPoint (s * q) B' r' = acPoint q long r := by
  unfold acPoint
  rw [h, hF.1, hF.2, hM, ht, hlong]
  congr 1
  · rw [← mul_neg, mul_div_mul_left _ _ hs]
  · rw [← mul_neg, mul_div_mul_left _ _ hs]
  · rw [mul_assoc, mul_div_mul_left _ _ hs, mul_div_assoc, mul_div_mul_left _ _ hl]

theorem acLoc_scaled (l long ao aL0 A : ℝ) (cd cm : Fin 3 → ℝ) (cg cg' : V3) :
    Option.Rel (CenterAlike l cg cg') (acLoc long ao aL0 A cd cm cg) (acLoc (l * long) ao aL0 A cd cm cg') := by
  unfold acLoc
  simp only
  split
  · exact .none
  · refine .some ⟨?_, ⟨rfl, rfl⟩, ?_⟩ <;> simp only <;> ring

theorem center2 (hT : Follow B B' K Δ Γ X Y s t ps ps') {l : ℝ} (hl : l ≠ 0) (hs : s ≠ 0) (ht : t = s * l) (hlong : B'.long = l * B.long)
    (hF : ∀ T T', X T T' → T'.FX = s * T.FX ∧ T'.FZ = s * T.FZ)
    (hq : ∀ d d', Δ d d' → dynPress B' d' = s * dynPress B d) (cg cg' : V3) (f : Option String) :
    Lock 𝓡 (CenterAlike l cg cg') (findAeroCenter (B := B) ps cg f) (findAeroCenter ps' cg' f) := by
  have hbody : Lock 𝓡 (CenterAlike l cg cg') (acBody (B := B) ps cg) (acBody ps' cg') := by
    unfold acBody
    refine bindEq2 (getAero2 fun d d' h => by rw [hT.angle d d' h]) fun ao => ?_
    have hdyn : Lock 𝓡 (fun a b => b = s * a) (dynPressure (B := B)) (dynPressure (B := B')) := by
      unfold dynPressure
      exact ite2 (by rw [hT.wings]) (getAero2 hq) (Lock.raise _)
    have hs0 := hs
    have hl0 := hl
    refine hdyn.bind fun q q' hq' => (sweep2 hT _).bind fun rows rows' hr => ?_
    subst hq'
    refine ite2 (by simp [hs, hlong, hl]) (Lock.raise _) ?_
    have hS : rows'.map (acPoint (s * q) B'.long) = rows.map (acPoint q B.long) := by
      clear hs hl
      induction hr with
      | nil => rfl
      | cons h _ ih => rw [List.map_cons, List.map_cons, ih, acPoint_scaled hs0 hl0 h.1 (hF _ _ h.2) (hT.moment _ _ h.2) ht hlong]
    simp only [hS]
    refine bindEq2 (orRaise2 _ (Option.rel_of_eq _)) fun aL0 => bindEq2 (orRaise2 _ (Option.rel_of_eq _)) fun A =>
      bindEq2 (orRaise2 _ (Option.rel_of_eq _)) fun cd => bindEq2 (orRaise2 _ (Option.rel_of_eq _)) fun cm => orRaise2 _ ?_
    rw [hlong]
    exact acLoc_scaled _ _ _ _ _ _ _ _ _
  unfold findAeroCenter
  exact given2 hT (hbody.bind fun r r' h => bindU2 (write2 _ _ _) (Lock.pure h))

end Follow
end Verif
