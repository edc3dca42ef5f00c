import Verif.Lemmas.Memory
import Verif.Model.AeroCenter

/-!
# The analyses of two aircraft in lockstep

`Paired` relates the solvers of two aircraft: whenever the flight condition satisfies `D`, they fail alike or give loads related
by `X`.  Then the analyses of the two aircraft run in lockstep too.
-/

namespace Verif
open V3 Act

variable {ι : Type} {B B' : Backend ι} {K : B.σ → B'.σ → Prop} {X : Loads → Loads → Prop} {D : AeroDict ι → Prop}
  {A A0 : Option (AeroDict ι) → Prop} {ps : Option B.π} {ps' : Option B'.π} {α β γ : Type}

/-- see the head of the file -/
structure Paired (B B' : Backend ι) (K : B.σ → B'.σ → Prop) (X : Loads → Loads → Prop) (D : AeroDict ι → Prop) (ps : Option B.π)
    (ps' : Option B'.π) : Prop where
  props : B'.hasProps = B.hasProps
  wings : B'.hasWings = B.hasWings
  Sw : B'.Sw = B.Sw
  lat : B'.lat = B.lat
  long : B'.long = B.long
  prop : ∀ d, D d → Lock K (fun r r' => X r.1.loads r'.1.loads ∧ r'.2 = r.2) (B.propSolve d ps) (B'.propSolve d ps')
  wing : ∀ d c, D d → Lock K (fun S S' => X S.total S'.total) (B.wingSolve d c) (B'.wingSolve d c)
  stall : ∀ s s', K s s' → B'.stallLoc s' = B.stallLoc s
  zero : X Loads.zero Loads.zero
  add : ∀ a a' b b', X a a' → X b b' → X (a.add b) (a'.add b')
  lift : ∀ T T', X T T' → T'.FL = T.FL
  given : ∀ d, D d → d.truthy = true
  alpha : ∀ d x, D d → D { d with alpha := some x }
  beta : ∀ d x, D d → D { d with beta := some x }
  speed : ∀ d x, D d → D { d with Vmag := some x }
  field : ∀ d x, D d → D { d with localState := some x }
  dflt : D defaultAeroDict

/-- the same arguments, the same files since the start, related solvers -/
structure Pairs (K : B.σ → B'.σ → Prop) (A : Option (AeroDict ι) → Prop) (F F' : List (String × Doc ι)) (w : World B) (w' : World B') :
    Prop where
  aero : w'.aero = w.aero
  ok : A w.aero
  ctrl : w'.ctrl = w.ctrl
  files : ∃ l, w.files = F ++ l ∧ w'.files = F' ++ l
  st : K w.st w'.st

/-- an `aero_state` that satisfies `D` -/
def Meets (D : AeroDict ι → Prop) (a : Option (AeroDict ι)) : Prop := ∃ d, a = some d ∧ D d

/-- arguments for which a method uses an `aero_state` that satisfies `D` -/
structure Around (D : AeroDict ι → Prop) (A0 : Option (AeroDict ι) → Prop) : Prop where
  inner : ∀ a, A0 a → a.any AeroDict.truthy = true → Meets D a
  outer : ∀ a, Meets D a → A0 a

theorem Around.refl : Around D (Meets D) := ⟨fun _ h _ => h, fun _ h => h⟩

namespace Paired

variable {F F' : List (String × Doc ι)}

local notation "𝓡" => Pairs K (Meets D) F F'
local notation "𝓐" => Pairs K A F F'

theorem setAero' {f : AeroDict ι → AeroDict ι} (hf : ∀ d, D d → D (f d)) : Lock 𝓡 (fun _ _ => True) (setAero f) (setAero f) := by
  rintro ⟨st, a, c, o, F⟩ ⟨st', a', c', o', F'⟩ ⟨h1, ⟨d, h2, hd⟩, h3, h4, h5⟩
  simp only at h1 h2
  subst h1
  subst h2
  exact ⟨trivial, rfl, ⟨_, rfl, hf d hd⟩, h3, h4, h5⟩

theorem setCtrl' (f : CtrlDict → CtrlDict) : Lock 𝓐 (fun _ _ => True) (setCtrl f) (setCtrl f) := by
  rintro ⟨st, a, c, o, F⟩ ⟨st', a', c', o', F'⟩ ⟨h1, h2, h3, h4, h5⟩
  simp only at h3
  subst h3
  cases c' with
  | none => exact ⟨rfl, h1, h2, rfl, h4, h5⟩
  | some d => exact ⟨trivial, h1, h2, rfl, h4, h5⟩

theorem getAero' {f f' : AeroDict ι → α} (hf : ∀ d, f' d = f d) : Lock 𝓐 (fun a b => b = a) (getAero f) (getAero f') := by
  rintro ⟨st, a, c, o, F⟩ ⟨st', a', c', o', F'⟩ ⟨h1, h2, h3, h4, h5⟩
  simp only at h1
  subst h1
  cases a' with
  | none => exact ⟨rfl, rfl, h2, h3, h4, h5⟩
  | some d => exact ⟨hf d, rfl, h2, h3, h4, h5⟩

theorem getDict : Lock 𝓡 (fun a b => b = a ∧ D a) (getAero id) (getAero id) := by
  rintro ⟨st, a, c, o, F⟩ ⟨st', a', c', o', F'⟩ ⟨h1, ⟨d, h2, hd⟩, h3, h4, h5⟩
  simp only at h1 h2
  subst h1
  subst h2
  exact ⟨⟨rfl, hd⟩, rfl, ⟨_, rfl, hd⟩, h3, h4, h5⟩

theorem getCtrl' (f : CtrlDict → α) : Lock 𝓐 (fun a b => b = a) (getCtrl f) (getCtrl f) := by
  rintro ⟨st, a, c, o, F⟩ ⟨st', a', c', o', F'⟩ ⟨h1, h2, h3, h4, h5⟩
  simp only at h3
  subst h3
  cases c' with
  | none => exact ⟨rfl, h1, h2, rfl, h4, h5⟩
  | some d => exact ⟨rfl, h1, h2, rfl, h4, h5⟩

theorem write (f : Option String) (doc : Doc ι) : Lock 𝓐 (fun _ _ => True) (writeFile f doc) (writeFile f doc) := by
  intro w w' h
  rcases f with _ | f
  · exact ⟨trivial, h⟩
  · obtain ⟨l, h1, h2⟩ := h.files
    refine ⟨trivial, h.aero, h.ok, h.ctrl, ⟨l ++ [(f, doc)], ?_, ?_⟩, h.st⟩
    · show w.files ++ _ = _
      rw [h1, List.append_assoc]
    · show w'.files ++ _ = _
      rw [h2, List.append_assoc]

theorem withAero' {P : α → β → Prop} {d : AeroDict ι} (hd : D d) {m : Act (World B) α} {m' : Act (World B') β} (hm : Lock 𝓡 P m m') :
    Lock 𝓐 (fun x y => P x.1 y.1 ∧ y.2 = x.2 ∧ D x.2) (withAero d m) (withAero d m') := by
  intro w w' h
  have hk : Pairs K (Meets D) F F' { w with aero := some d } { w' with aero := some d } := ⟨rfl, ⟨d, rfl, hd⟩, h.ctrl, h.files, h.st⟩
  obtain ⟨h1, h2⟩ := hm _ _ hk
  unfold withAero
  rcases hq : m { w with aero := some d } with ⟨e | a, w1⟩ <;> rcases hq' : m' { w' with aero := some d } with ⟨e' | a', w1'⟩ <;>
    rw [hq, hq'] at h1 h2
  · exact ⟨h1, h.aero, h.ok, h2.ctrl, h2.files, h2.st⟩
  · exact h1.elim
  · exact h1.elim
  · refine ⟨⟨h1, ?_, ?_⟩, h.aero, h.ok, h2.ctrl, h2.files, h2.st⟩
    · show w1'.aero.getD d = w1.aero.getD d
      rw [h2.aero]
    · show D (w1.aero.getD d)
      obtain ⟨e, he, hD⟩ := h2.ok
      simp only at he
      rw [he]
      exact hD

theorem withCtrl' {P : α → β → Prop} (c : CtrlDict) {m : Act (World B) α} {m' : Act (World B') β} (hm : Lock 𝓐 P m m') :
    Lock 𝓐 P (withCtrl c m) (withCtrl c m') := by
  intro w w' h
  have hk : Pairs K A F F' { w with ctrl := some c } { w' with ctrl := some c } := ⟨h.aero, h.ok, rfl, h.files, h.st⟩
  obtain ⟨h1, h2⟩ := hm _ _ hk
  exact ⟨h1, h2.aero, h2.ok, h.ctrl, h2.files, h2.st⟩

theorem onSolver' {P : α → β → Prop} {m : Act B.σ α} {m' : Act B'.σ β} (hm : Lock K P m m') :
    Lock 𝓐 P (onSolver m) (onSolver m') := by
  intro w w' h
  obtain ⟨h1, h2⟩ := hm _ _ h.st
  exact ⟨h1, h.aero, h.ok, h.ctrl, h.files, h2⟩

theorem ite' {P : β → γ → Prop} {p : Prop} [Decidable p] {m1 m2 : Act (World B) β} {m1' m2' : Act (World B') γ}
    (h1 : Lock 𝓐 P m1 m1') (h2 : Lock 𝓐 P m2 m2') :
    Lock 𝓐 P (if p then m1 else m2) (if p then m1' else m2') := by
  split_ifs
  · exact h1
  · exact h2

theorem bindEq {P : β → γ → Prop} {m : Act (World B) α} {m' : Act (World B') α} {f : α → Act (World B) β} {f' : α → Act (World B') γ}
    (hm : Lock 𝓐 (fun a b => b = a) m m') (hf : ∀ a, Lock 𝓐 P (f a) (f' a)) : Lock 𝓐 P (m >>= f) (m' >>= f') :=
  hm.bind fun a a' h => by subst h; exact hf a'

theorem bindU {P : β → γ → Prop} {m : Act (World B) Unit} {m' : Act (World B') Unit} {f : Unit → Act (World B) β} {f' : Unit → Act (World B') γ}
    (hm : Lock 𝓐 (fun _ _ => True) m m') (hf : Lock 𝓐 P (f ()) (f' ())) : Lock 𝓐 P (m >>= f) (m' >>= f') :=
  hm.bind fun _ _ _ => hf

theorem orRaise' (e : PyErr) (o : Option α) : Lock 𝓐 (fun a b => b = a) (Act.orRaise e o) (Act.orRaise e o) := by
  cases o
  · exact Lock.raise _
  · exact Lock.ret rfl

/-- the truth value of the `aero_state` decides between two computations, of which only the first one relies on `D` -/
theorem given' (hA : Around D A) {P : α → β → Prop} {m n : Act (World B) α} {m' n' : Act (World B') β}
    (hm : Lock 𝓡 P m m') (hn : Lock 𝓐 P n n') :
    Lock 𝓐 P (get >>= fun w => if aeroGiven w = true then m else n) (get >>= fun w => if aeroGiven w = true then m' else n') := by
  intro w w' h
  have hg : aeroGiven w' = aeroGiven w := by unfold aeroGiven; rw [h.aero]
  rw [get_bind, get_bind, hg]
  by_cases hw : aeroGiven w = true
  · rw [if_pos hw, if_pos hw]
    obtain ⟨k1, k2⟩ := hm w w' ⟨h.aero, hA.inner _ h.ok hw, h.ctrl, h.files, h.st⟩
    exact ⟨k1, k2.aero, hA.outer _ k2.ok, k2.ctrl, k2.files, k2.st⟩
  · rw [if_neg hw, if_neg hw]
    exact hn _ _ h

theorem solveProps' (hT : Paired B B' K X D ps ps') {d : AeroDict ι} (hd : D d) :
    Lock 𝓡 (fun r r' => X ((r.map (·.loads)).getD Loads.zero) ((r'.map (·.loads)).getD Loads.zero)) (solveProps ps d) (solveProps ps' d) := by
  unfold solveProps
  rw [hT.props]
  refine ite' ?_ (Lock.pure hT.zero)
  refine (onSolver' (hT.prop d hd)).bind fun ⟨r, f⟩ ⟨r', f'⟩ h => ?_
  obtain ⟨h1, h2⟩ := h
  simp only at h1 h2
  subst h2
  rcases f' with _ | f
  · exact bindU (Lock.ret trivial) (Lock.pure h1)
  · exact bindU (setAero' fun d hd => hT.field d f hd) (Lock.pure h1)

theorem solveWings' (hT : Paired B B' K X D ps ps') :
    Lock 𝓡 (fun r r' => X ((r.map (·.total)).getD Loads.zero) ((r'.map (·.total)).getD Loads.zero)) (solveWings (B := B)) (solveWings (B := B')) := by
  unfold solveWings
  rw [hT.wings]
  refine ite' ?_ (Lock.pure hT.zero)
  refine Lock.get.bind fun w w' h => ?_
  obtain ⟨d, hd, hD⟩ := h.ok
  rw [h.aero, h.ctrl, hd]
  exact (onSolver' (hT.wing d w.ctrl hD)).bind fun r r' hr => Lock.pure hr

theorem parts (hT : Paired B B' K X D ps ps') : Lock 𝓡 (fun r r' => X r.2.2 r'.2.2) (solveParts (B := B) ps) (solveParts ps') := by
  unfold solveParts
  refine getDict.bind fun d d' h => ?_
  obtain ⟨rfl, hd⟩ := h
  refine (solveProps' hT hd).bind fun p p' hp => (solveWings' hT).bind fun S S' hS => ?_
  refine Lock.bind (P := fun _ _ => True) (fun w w' h => ⟨trivial, h.aero, h.ok, h.ctrl, h.files, h.st⟩) fun _ _ _ => Lock.pure ?_
  exact hT.add _ _ _ _ hp hS

theorem solve (hT : Paired B B' K X D ps ps') (hA : Around D A) : Lock 𝓐 X (muSolve (B := B) ps) (muSolve ps') := by
  unfold muSolve
  exact given' hA ((parts hT).bind fun r r' h => Lock.pure h) ((withAero' hT.dflt (parts hT)).bind fun r r' h => Lock.pure h.1)

theorem solve' (hT : Paired B B' K X D ps ps') : Lock 𝓡 X (muSolve (B := B) ps) (muSolve ps') := solve hT .refl

/-- `solve` with a filename: the file may differ -/
theorem solveFile (hT : Paired B B' K X D ps ps') (hA : Around D A) (f : Option String) {w : World B} {w' : World B'} (h : 𝓐 w w') :
    Outcome X (muSolveFile ps f w).1 (muSolveFile ps' f w').1 ∧ K (muSolveFile ps f w).2.st (muSolveFile ps' f w').2.st := by
  have hg : aeroGiven w' = aeroGiven w := by unfold aeroGiven; rw [h.aero]
  unfold muSolveFile
  rw [get_bind, get_bind, hg]
  by_cases hw : aeroGiven w = true
  · rw [if_pos hw, if_pos hw, bind_def, bind_def]
    obtain ⟨k1, k2⟩ := parts (F := F) (F' := F') hT w w' ⟨h.aero, hA.inner _ h.ok hw, h.ctrl, h.files, h.st⟩
    rcases hq : solveParts ps w with ⟨e | r, w1⟩ <;> rcases hq' : solveParts ps' w' with ⟨e' | r', w1'⟩ <;> rw [hq, hq'] at k1 k2
    · exact ⟨k1, k2.st⟩
    · exact k1.elim
    · exact k1.elim
    · cases f
      · exact ⟨k1, k2.st⟩
      · exact ⟨k1, k2.st⟩
  · rw [if_neg hw, if_neg hw, bind_def, bind_def]
    obtain ⟨k1, k2⟩ := solve hT hA w w' h
    rcases hq : muSolve ps w with ⟨e | r, w1⟩ <;> rcases hq' : muSolve ps' w' with ⟨e' | r', w1'⟩ <;> rw [hq, hq'] at k1 k2
    · exact ⟨k1, k2.st⟩
    · exact k1.elim
    · exact k1.elim
    · cases f
      · exact ⟨k1, k2.st⟩
      · exact ⟨rfl, k2.st⟩

/-! ### Derivatives -/

theorem central' (hT : Paired B B' K X D ps ps') (hA : Around D A) {set : ℝ → Act (World B) Unit} {set' : ℝ → Act (World B') Unit}
    (hs : ∀ x, Lock 𝓐 (fun _ _ => True) (set x) (set' x)) (x0 δ : ℝ) :
    Lock 𝓐 (fun r r' => X r.1 r'.1 ∧ X r.2 r'.2) (central ps set x0 δ) (central ps' set' x0 δ) := by
  unfold central
  exact bindU (hs _) ((solve hT hA).bind fun b b' hb => bindU (hs _) ((solve hT hA).bind fun f f' hf => Lock.pure ⟨hf, hb⟩))

theorem dyn (hT : Paired B B' K X D ps ps') : Lock 𝓐 (fun a b => b = a) (dynPressure (B := B)) (dynPressure (B := B')) := by
  unfold dynPressure
  rw [hT.wings]
  exact ite' (getAero' fun d => by unfold dynPress; rw [hT.Sw]) (Lock.raise _)

theorem stabBody' (hT : Paired B B' K X D ps ps') :
    Lock 𝓡 (fun s s' => ∃ k fa ba fb bb fa' ba' fb' bb', X fa fa' ∧ X ba ba' ∧ X fb fb' ∧ X bb bb' ∧
      s = ⟨derivOf B fa ba k, derivOf B fb bb k⟩ ∧ s' = ⟨derivOf B' fa' ba' k, derivOf B' fb' bb' k⟩) (stabBody (B := B) ps) (stabBody ps') := by
  unfold stabBody
  refine bindEq (dyn hT) fun DP => bindEq (getAero' fun d => rfl) fun a0 =>
    (central' hT .refl (fun x => setAero' fun d hd => hT.alpha d x hd) _ _).bind fun r r' h => bindU (setAero' fun d hd => hT.alpha d _ hd) ?_
  exact bindEq (getAero' fun d => rfl) fun b0 =>
    (central' hT .refl (fun x => setAero' fun d hd => hT.beta d x hd) _ _).bind fun q q' h' => bindU (setAero' fun d hd => hT.beta d _ hd)
      (Lock.pure ⟨_, _, _, _, _, _, _, _, _, h.1, h.2, h'.1, h'.2, rfl, rfl⟩)

/-- the stability derivatives, given what the loads say about a derivative -/
theorem stability (hT : Paired B B' K X D ps ps') (hA : Around D A) {Z : Option Deriv → Option Deriv → Prop}
    (hZ : ∀ f f' b b' k, X f f' → X b b' → Z (derivOf B f b k) (derivOf B' f' b' k)) :
    Lock 𝓐 (fun s s' => Z s.a s'.a ∧ Z s.b s'.b) (stabilityDerivatives (B := B) ps) (stabilityDerivatives ps') := by
  have h : Lock 𝓡 (fun s s' => Z s.a s'.a ∧ Z s.b s'.b) (stabBody (B := B) ps) (stabBody ps') := (stabBody' hT).mono (by
    rintro s s' ⟨k, fa, ba, fb, bb, fa', ba', fb', bb', h1, h2, h3, h4, rfl, rfl⟩
    exact ⟨hZ _ _ _ _ _ h1 h2, hZ _ _ _ _ _ h3 h4⟩)
  unfold stabilityDerivatives
  exact given' hA h ((withAero' hT.dflt h).bind fun r r' h => Lock.pure h.1)

theorem contBody' (hT : Paired B B' K X D ps ps') (hA : Around D A) {Z : Option Deriv → Option Deriv → Prop}
    (hZ : ∀ f f' b b' k, X f f' → X b b' → Z (derivOf B f b k) (derivOf B' f' b' k)) :
    Lock 𝓐 (fun s s' => Z s.da s'.da ∧ Z s.de s'.de ∧ Z s.dr s'.dr ∧ Z s.df s'.df) (contBody (B := B) ps) (contBody ps') := by
  unfold contBody
  refine bindEq (dyn hT) fun DP => bindEq (getCtrl' _) fun _ =>
    (central' hT hA (fun x => setCtrl' _) _ _).bind fun r r' h => bindU (setCtrl' _) ?_
  refine bindEq (getCtrl' _) fun _ => (central' hT hA (fun x => setCtrl' _) _ _).bind fun r2 r2' h2 => bindU (setCtrl' _) ?_
  refine bindEq (getCtrl' _) fun _ => (central' hT hA (fun x => setCtrl' _) _ _).bind fun r3 r3' h3 => bindU (setCtrl' _) ?_
  refine bindEq (getCtrl' _) fun _ => (central' hT hA (fun x => setCtrl' _) _ _).bind fun r4 r4' h4 => bindU (setCtrl' _) ?_
  exact Lock.pure ⟨hZ _ _ _ _ _ h.1 h.2, hZ _ _ _ _ _ h2.1 h2.2, hZ _ _ _ _ _ h3.1 h3.2, hZ _ _ _ _ _ h4.1 h4.2⟩

theorem control (hT : Paired B B' K X D ps ps') (hA : Around D A) {Z : Option Deriv → Option Deriv → Prop}
    (hZ : ∀ f f' b b' k, X f f' → X b b' → Z (derivOf B f b k) (derivOf B' f' b' k)) :
    Lock 𝓐 (fun s s' => Z s.da s'.da ∧ Z s.de s'.de ∧ Z s.dr s'.dr ∧ Z s.df s'.df) (controlDerivatives (B := B) ps) (controlDerivatives ps') := by
  unfold controlDerivatives
  refine Lock.get.bind fun w w' h => ?_
  rw [show ctrlGiven w' = ctrlGiven w by unfold ctrlGiven; rw [h.ctrl]]
  exact ite' (contBody' hT hA hZ) (withCtrl' _ (contBody' hT hA hZ))

/-! ### Stall -/

theorem stallLoop' (hT : Paired B B' K X D ps ps') : ∀ (n : ℕ) (a : ℝ),
    Lock 𝓡 (fun a b => b = a) (stallLoop (B := B) ps n a) (stallLoop ps' n a) := by
  intro n
  induction n with
  | zero => intro a; exact Lock.ret rfl
  | succ n ih =>
    intro a
    unfold stallLoop
    refine bindU (setAero' fun d hd => hT.alpha d a hd) ((solve' hT).tryFinite.bind fun r r' hr => ?_)
    refine Lock.get.bind fun w w' h => ?_
    rw [hT.stall _ _ h.st]
    rcases B.stallLoc w.st with _ | s
    · exact ih _
    · cases hr with
      | none => exact Lock.raise _
      | some h => exact Lock.pure (by rw [hT.lift _ _ h])

theorem onset (hT : Paired B B' K X D ps ps') (hA : Around D A) (n : ℕ) :
    Lock 𝓐 (fun a b => b = a) (stallOnset (B := B) ps n) (stallOnset ps' n) := by
  unfold stallOnset
  exact given' hA (stallLoop' hT _ _) ((withAero' hT.dflt (stallLoop' hT _ _)).bind fun r r' h => Lock.pure h.1)

theorem onsetFile (hT : Paired B B' K X D ps ps') (hA : Around D A) (f : Option String) (n : ℕ) :
    Lock 𝓐 (fun a b => b = a) (stallOnsetFile (B := B) ps f n) (stallOnsetFile ps' f n) := by
  unfold stallOnsetFile
  rw [hT.wings]
  refine ite' (bindEq (onset hT hA n) fun r => ?_) ?_
  · cases r
    · exact Lock.pure rfl
    · exact bindU (write _ _) (Lock.pure rfl)
  · cases f
    · exact Lock.raise _
    · exact bindU (write _ _) (Lock.pure rfl)

theorem airspeedLoop' (hT : Paired B B' K X D ps ps') (W e : ℝ) (k : ℕ) : ∀ (n : ℕ) (x0 y0 x1 y1 : ℝ) (s : StallResult) (d : AeroDict ι), D d →
    Lock 𝓡 (fun a b => b = a) (airspeedLoop (B := B) ps W e k n x0 y0 x1 y1 s d) (airspeedLoop ps' W e k n x0 y0 x1 y1 s d) := by
  intro n
  induction n with
  | zero => intro x0 y0 x1 y1 s d _; exact Lock.ret rfl
  | succ n ih =>
    intro x0 y0 x1 y1 s d hd
    unfold airspeedLoop
    refine ite' (Lock.raise _) (ite' (Lock.pure rfl) ((withAero' (hT.speed _ _ hd) (onset hT .refl k)).bind fun ⟨a, x⟩ ⟨a', x'⟩ h => ?_))
    obtain ⟨h1, h2, h3⟩ := h
    simp only at h1 h2 h3
    subst h1
    subst h2
    rcases a' with _ | s2
    · exact Lock.pure rfl
    · exact ih _ _ _ _ _ _ h3

theorem airspeedBody' (hT : Paired B B' K X D ps ps') (W e : ℝ) (n k : ℕ) :
    Lock 𝓡 (fun a b => b = a) (airspeedBody (B := B) ps W e n k) (airspeedBody ps' W e n k) := by
  unfold airspeedBody
  refine getDict.bind fun d d' h => ?_
  obtain ⟨rfl, hd⟩ := h
  refine bindEq (m := needKey d'.Vmag) (m' := needKey d'.Vmag) ?_ fun x0 => ?_
  · cases d'.Vmag
    · exact Lock.raise _
    · exact Lock.ret rfl
  refine (withAero' (hT.speed _ _ hd) (onset hT .refl k)).bind fun ⟨a, x⟩ ⟨a', x'⟩ h => ?_
  obtain ⟨h1, h2, -⟩ := h
  simp only at h1 h2
  subst h1
  refine (withAero' (hT.speed _ _ hd) (onset hT .refl k)).bind fun ⟨b, y⟩ ⟨b', y'⟩ h => ?_
  obtain ⟨h1, h2, h3⟩ := h
  simp only at h1 h2 h3
  subst h1
  subst h2
  rcases a' with _ | s0 <;> rcases b' with _ | s1
  · exact Lock.pure rfl
  · exact Lock.pure rfl
  · exact Lock.pure rfl
  · exact airspeedLoop' hT _ _ _ _ _ _ _ _ _ _ h3

theorem airspeed (hT : Paired B B' K X D ps ps') (hA : Around D A) (W e : ℝ) (f : Option String) (n k : ℕ) :
    Lock 𝓐 (fun a b => b = a) (stallAirspeed (B := B) ps W e f n k) (stallAirspeed ps' W e f n k) := by
  unfold stallAirspeed
  rw [hT.wings]
  refine ite' (given' hA (bindEq (airspeedBody' hT W e n k) fun r => ?_) (Lock.raise _)) ?_
  · rcases r with _ | ⟨s, v⟩
    · exact Lock.pure rfl
    · exact bindU (write _ _) (Lock.pure rfl)
  · cases f
    · exact Lock.raise _
    · exact bindU (write _ _) (Lock.pure rfl)

/-! ### Target lift -/

theorem liftAt' (hT : Paired B B' K X D ps ps') (hb : Lock K (fun r r' => r'.map (·.FL) = r.map (·.FL)) B.solveBad B'.solveBad) {d : AeroDict ι}
    (hd : D d) (x : Option ℝ) : Lock 𝓡 (fun x y => y = x ∧ D x.2) (liftAt (B := B) ps d x) (liftAt ps' d x) := by
  cases x
  · exact (onSolver' hb).bind fun r r' h => Lock.pure ⟨by rw [h], hd⟩
  · refine (withAero' (hT.alpha _ _ hd) (solve' hT).tryFinite).bind fun ⟨a, x⟩ ⟨a', x'⟩ h => ?_
    obtain ⟨h1, h2, h3⟩ := h
    simp only at h1 h2 h3
    subst h2
    refine Lock.pure ⟨?_, h3⟩
    cases h1 with
    | none => rfl
    | some h => simp only [Option.map_some, hT.lift _ _ h]

theorem targetLoop' (hT : Paired B B' K X D ps ps') (hb : Lock K (fun r r' => r'.map (·.FL) = r.map (·.FL)) B.solveBad B'.solveBad) (L e : ℝ) :
    ∀ (n : ℕ) (x0 y0 x1 y1 : Option ℝ) (d : AeroDict ι), D d →
    Lock 𝓡 (fun a b => b = a) (targetLoop (B := B) ps L e n x0 y0 x1 y1 d) (targetLoop ps' L e n x0 y0 x1 y1 d) := by
  intro n
  induction n with
  | zero => intro x0 y0 x1 y1 d _; exact Lock.ret rfl
  | succ n ih =>
    intro x0 y0 x1 y1 d hd
    unfold targetLoop
    refine ite' (Lock.pure rfl) ((liftAt' hT hb hd _).bind fun a a' h => ?_)
    obtain ⟨rfl, h⟩ := h
    exact ite' (Lock.pure rfl) (ih _ _ _ _ _ h)

theorem targetBody' (hT : Paired B B' K X D ps ps') (hb : Lock K (fun r r' => r'.map (·.FL) = r.map (·.FL)) B.solveBad B'.solveBad) (L e : ℝ) :
    Lock 𝓡 (fun a b => b = a) (targetBody (B := B) ps L e) (targetBody ps' L e) := by
  unfold targetBody
  refine getDict.bind fun d d' h => ?_
  obtain ⟨rfl, hd⟩ := h
  refine bindEq (m := needKey d'.alpha) (m' := needKey d'.alpha) ?_ fun x0 => ?_
  · cases d'.alpha
    · exact Lock.raise _
    · exact Lock.ret rfl
  refine (liftAt' hT hb hd _).bind fun a a' h => (liftAt' hT hb hd _).bind fun b b' h' => ?_
  obtain ⟨rfl, -⟩ := h
  obtain ⟨rfl, h'⟩ := h'
  exact targetLoop' hT hb _ _ _ _ _ _ _ _ h'

theorem target (hT : Paired B B' K X D ps ps') (hA : Around D A) (hb : Lock K (fun r r' => r'.map (·.FL) = r.map (·.FL)) B.solveBad B'.solveBad)
    (L e : ℝ) (f : Option String) : Lock 𝓐 (fun a b => b = a) (targetLift (B := B) ps L e f) (targetLift ps' L e f) := by
  unfold targetLift
  refine given' hA (bindEq (targetBody' hT hb L e) fun r => ?_) ((withAero' hT.dflt (targetBody' hT hb L _)).bind fun ⟨r, x⟩ ⟨r', x'⟩ h => ?_)
  · rcases r with _ | a
    · cases f
      · exact Lock.raise _
      · exact bindU (write _ _) (Lock.pure rfl)
    · exact bindU (write _ _) (Lock.pure rfl)
  · obtain ⟨h1, -, -⟩ := h
    simp only at h1
    subst h1
    rcases r' with _ | a
    · exact Lock.raise _
    · exact bindU (write _ _) (Lock.pure rfl)

/-! ### Aerodynamic centre -/

theorem sweep (hT : Paired B B' K X D ps ps') : ∀ l : List ℝ,
    Lock 𝓡 (List.Forall₂ fun r r' => r'.1 = r.1 ∧ X r.2 r'.2) (acSweep (B := B) ps l) (acSweep ps' l) := by
  intro l
  induction l with
  | nil => exact Lock.pure .nil
  | cons x l ih =>
    unfold acSweep
    exact bindU (setAero' fun d hd => hT.alpha d _ hd) ((solve' hT).bind fun r r' h => ih.bind fun rs rs' hs => Lock.pure (.cons ⟨rfl, h⟩ hs))

end Paired
end Verif
