import Verif.Lemmas.SolveSim
import Verif.Thm.CraftSimilar
import Verif.Thm.MUScaling

/-! Helper lemmas: the derivative methods on two objects whose solves are similar. -/

namespace Verif
open V3 Act

section
variable {ι ι' : Type} {s : Scl}

theorem solveTail_keeps {B : Backend ι} (pr : Option PropTotals) (w1 : World B) :
    ((solveWings >>= fun wing => (do
      Act.change fun w => { w with objs := w.objs ++ [totalOf pr wing] }
      return (wing, pr, totalOf pr wing)) : Act (World B) _) w1).2.aero = w1.aero ∧
    ((solveWings >>= fun wing => (do
      Act.change fun w => { w with objs := w.objs ++ [totalOf pr wing] }
      return (wing, pr, totalOf pr wing)) : Act (World B) _) w1).2.ctrl = w1.ctrl := by
  rw [bind_def]
  unfold solveWings
  by_cases hw0 : B.hasWings = true
  · rw [if_pos hw0, get_bind, bind_def]
    unfold onSolver
    generalize B.wingSolve _ w1.ctrl w1.st = A
    rcases A with ⟨e | S, s1⟩ <;> exact ⟨rfl, rfl⟩
  · rw [if_neg hw0]
    exact ⟨rfl, rfl⟩

/-- what `solve` leaves in the caller's dictionaries: nothing, or the two velocity fields -/
theorem solveParts_keeps {B : Backend ι} {B' : Backend ι'} (σ : ι ≃ ι') {ps : Option B.π} {ps' : Option B'.π}
    (hP : B'.hasProps = B.hasProps)
    {w : World B} {w' : World B'} {d : AeroDict ι} {d' : AeroDict ι'} (hd : w.aero = some d) (hd' : w'.aero = some d')
    (hp : Outcome (fun r r' => r'.1 = r.1.sim s ∧ r'.2 = r.2.map (fieldSim s σ))
        (B.propSolve d ps w.st).1 (B'.propSolve d' ps' w'.st).1) :
    (solveParts ps w).2.ctrl = w.ctrl ∧ (solveParts ps' w').2.ctrl = w'.ctrl ∧
    ∃ f f', (f = d.localState ∧ f' = d'.localState ∨ ∃ g, f = some g ∧ f' = some (fieldSim s σ g)) ∧
      (solveParts ps w).2.aero = some { d with localState := f } ∧ (solveParts ps' w').2.aero = some { d' with localState := f' } := by
  unfold solveParts
  rw [bind_of_ok (show getAero id w = (.ok d, w) by unfold getAero; rw [hd]; rfl),
    bind_of_ok (show getAero id w' = (.ok d', w') by unfold getAero; rw [hd']; rfl)]
  unfold solveProps
  rw [hP]
  by_cases hp0 : B.hasProps = true
  · simp only [hp0, if_true]
    rw [bind_def, bind_def, bind_def, bind_def]
    unfold onSolver
    revert hp
    generalize B.propSolve d ps w.st = A
    generalize B'.propSolve _ ps' w'.st = A'
    intro g1
    rcases A with ⟨e | ⟨r, f⟩, s1⟩ <;> rcases A' with ⟨e' | ⟨r', f'⟩, s1'⟩ <;> simp only [Outcome] at g1
    · exact ⟨rfl, rfl, d.localState, d'.localState, .inl ⟨rfl, rfl⟩, hd, hd'⟩
    · obtain ⟨rfl, rfl⟩ := g1
      rcases f with _ | f
      · have h1 := solveTail_keeps (some r) { w with st := s1 }
        have h2 := solveTail_keeps (some (r.sim s)) { w' with st := s1' }
        exact ⟨h1.2, h2.2, d.localState, d'.localState, .inl ⟨rfl, rfl⟩, h1.1.trans hd, h2.1.trans hd'⟩
      · simp only [Option.map_some]
        unfold setAero
        simp only [bind_def, hd, hd', pure_run]
        have h1 := solveTail_keeps (some r) { w with st := s1, aero := some { d with localState := some f } }
        have h2 := solveTail_keeps (some (r.sim s)) { w' with st := s1', aero := some { d' with localState := some (fieldSim s σ f) } }
        exact ⟨h1.2, h2.2, some f, _, .inr ⟨f, rfl, rfl⟩, h1.1, h2.1⟩
  · simp only [hp0]
    have h1 := solveTail_keeps none w
    have h2 := solveTail_keeps none w'
    exact ⟨h1.2, h2.2, d.localState, d'.localState, .inl ⟨rfl, rfl⟩, h1.1.trans hd, h2.1.trans hd'⟩

end

/-- the propeller part of `solve` on the two objects -/
theorem ObjSim.propSolve {s : Scl} {o o' : Analyser} {p p' : Plane} {σ : Fin (sectionsOf o.wing) ≃ Fin (sectionsOf o'.wing)} (h : ObjSim s o o' p p' σ)
    {P : PropSt → PropSt → Prop} {simps : List ℝ → List ℝ → ℝ} {fuel : ℕ} {bad : _} {bad' : _}
    {d : AeroDict (Fin (sectionsOf o.wing))} {d' : AeroDict (Fin (sectionsOf o'.wing))} (hf : FlowSim s d d')
    (ps ps' : Option PropDict) (hR : RunsAlike simps fuel s P d d' (ps.getD []) (ps'.getD []))
    {st : _} {st' : _} (hst : StSim s P σ st st') :
    Outcome (fun r r' => r'.1 = r.1.sim s ∧ r'.2 = r.2.map (fieldSim s σ)) ((o.backend p simps fuel bad).propSolve d ps st).1
      ((o'.backend p' simps fuel bad').propSolve d' ps' st').1 := by
  obtain ⟨h1, h2⟩ := hst
  obtain ⟨l, sl⟩ := st
  obtain ⟨l', sl'⟩ := st'
  simp only [Analyser.backend, Analyser.backendOf] at *
  rw [h.slots]
  by_cases hsome : o.slots.isSome = true
  · simp only [hsome, if_true]
    have := propsSolve_sim σ hf hR (pts := if !p.wings.isEmpty then pointsOf o.wing else none)
      (pts' := if !p'.wings.isEmpty then pointsOf o'.wing else none) (by rw [h.wings]; split_ifs; exacts [h.points, rfl])
      (slotSim_withCg p.cg h2)
    rw [← h.cg] at this
    revert this
    generalize propsSolve simps fuel _ (some d) (ps.getD []) _ = A
    generalize propsSolve simps fuel _ (some d') (ps'.getD []) _ = A'
    rintro ⟨k1, k2⟩
    rcases A with ⟨e | r, s1⟩ <;> rcases A' with ⟨e' | r', s1'⟩ <;> simp [Except.map] at k1
    · exact k1.symm
    · subst k1; exact ⟨rfl, rfl⟩
  · simp only [hsome]
    rfl

theorem muSolve_post {ι : Type} {B : Backend ι} (ps : Option B.π) {w : World B} (h : aeroGiven w = true) :
    (muSolve ps w).2 = (solveParts ps w).2 := by
  unfold muSolve
  rw [get_bind, if_pos h, bind_def]
  generalize solveParts ps w = A
  rcases A with ⟨e | ⟨x, y, z⟩, s1⟩ <;> rfl

/-! ### The derivative methods -/

/-- two objects in lockstep: the second one at `l` times the size, `k` times the speed and `m` times the density -/
structure LikeWorld {ι ι' : Type} {B : Backend ι} {B' : Backend ι'} (l k m : ℝ) (σ : ι ≃ ι') (H : B.σ → B'.σ → Prop) (w : World B) (w' : World B') : Prop where
  aero : ∃ d V r, w.aero = some d ∧ d.Vmag = some V ∧ d.rho = some r ∧ w'.aero = some (d.similar l k m σ)
  ctrl : w'.ctrl = w.ctrl
  held : H w.st w'.st

/-- reference area and lengths of the larger aircraft -/
structure RefSim {ι ι' : Type} (l : ℝ) (B : Backend ι) (B' : Backend ι') : Prop where
  wings : B'.hasWings = B.hasWings
  Sw : B'.Sw = l ^ 2 * B.Sw
  lat : B'.lat = l * B.lat
  long : B'.long = l * B.long

section
variable {ι ι' : Type} {B : Backend ι} {B' : Backend ι'} {l k m : ℝ} {σ : ι ≃ ι'}
  {H : B.σ → B'.σ → Prop} {ps : Option B.π} {ps' : Option B'.π}

/-- the loads of one solve -/
def SimLoad (l k m : ℝ) (a a' : Loads) : Prop := a' = a.scale (m * k ^ 2 * l ^ 2) (m * k ^ 2 * l ^ 3)

theorem like_setAero {f : AeroDict ι → AeroDict ι} {f' : AeroDict ι' → AeroDict ι'}
    (hf : ∀ d, (f d).Vmag = d.Vmag ∧ (f d).rho = d.rho ∧ f' (d.similar l k m σ) = (f d).similar l k m σ) :
    Lock (LikeWorld l k m σ H) (fun _ _ => True) (setAero f) (setAero f') := by
  intro w w' h
  obtain ⟨d, V, r, hd, hV, hr, hd'⟩ := h.aero
  obtain ⟨h1, h2, h4⟩ := hf d
  rw [setAero_some hd, setAero_some hd']
  exact ⟨trivial, ⟨f d, V, r, rfl, h1.trans hV, h2.trans hr, by rw [h4]⟩, h.ctrl, h.held⟩

theorem like_setCtrl (f : CtrlDict → CtrlDict) :
    Lock (LikeWorld (B := B) (B' := B') l k m σ H) (fun _ _ => True) (setCtrl f) (setCtrl f) := by
  intro w w' h
  unfold setCtrl
  rw [h.ctrl]
  rcases hc : w.ctrl with _ | c
  · exact ⟨rfl, h⟩
  · exact ⟨trivial, h.aero, rfl, h.held⟩

theorem like_getCtrl {α : Type} (f : CtrlDict → α) :
    Lock (LikeWorld (B := B) (B' := B') l k m σ H) (fun a b => b = a) (getCtrl f) (getCtrl f) := by
  intro w w' h
  unfold getCtrl
  rw [h.ctrl]
  rcases w.ctrl with _ | c
  · exact ⟨rfl, h⟩
  · exact ⟨rfl, h⟩

theorem like_getAero {α : Type} {P : α → α → Prop} {f : AeroDict ι → α} {f' : AeroDict ι' → α}
    (hf : ∀ d V r, d.Vmag = some V → d.rho = some r → P (f d) (f' (d.similar l k m σ))) :
    Lock (LikeWorld (B := B) (B' := B') l k m σ H) P (getAero f) (getAero f') := by
  intro w w' h
  obtain ⟨d, V, r, hd, hV, hr, hd'⟩ := h.aero
  rw [getAero_some hd, getAero_some hd']
  exact ⟨hf d V r hV hr, h⟩

theorem like_central (hs : Lock (LikeWorld l k m σ H) (SimLoad l k m) (muSolve ps) (muSolve ps')) {set : ℝ → Act (World B) Unit}
    {set' : ℝ → Act (World B') Unit} {x0 x0' δ δ' : ℝ}
    (h1 : Lock (LikeWorld l k m σ H) (fun _ _ => True) (set (x0 - δ)) (set' (x0' - δ')))
    (h2 : Lock (LikeWorld l k m σ H) (fun _ _ => True) (set (x0 + δ)) (set' (x0' + δ'))) :
    Lock (LikeWorld l k m σ H) (fun a b => SimLoad l k m a.1 b.1 ∧ SimLoad l k m a.2 b.2) (central ps set x0 δ)
      (central ps' set' x0' δ') := by
  unfold central
  refine h1.bind fun _ _ _ => hs.bind fun b b' hb => h2.bind fun _ _ _ => hs.bind fun f f' hf => ?_
  exact Lock.pure ⟨hf, hb⟩

theorem like_dynPressure (hr : RefSim l B B') :
    Lock (LikeWorld (B := B) (B' := B') l k m σ H) (fun a b => b = m * k ^ 2 * l ^ 2 * a) dynPressure dynPressure := by
  unfold dynPressure
  rw [hr.wings]
  split
  · refine like_getAero fun d V r hV hr' => ?_
    simp only [dynPress, AeroDict.similar, AeroDict.divRates, AeroDict.reindex, AeroDict.faster, AeroDict.scaleSpeed, AeroDict.scaleDensity, hV, hr',
      Option.map_some, Option.getD_some, hr.Sw]
    ring
  · exact Lock.raise _

/-- the non-dimensional derivative is the same -/
theorem derivOf_alike (hr : RefSim l B B') (hl : l ≠ 0) (hc : m * k ^ 2 * l ^ 2 ≠ 0) {f f' b b' : Loads} (hf : SimLoad l k m f f')
    (hb : SimLoad l k m b b') (x q q' : ℝ) (hq : q' = m * k ^ 2 * l ^ 2 * q) : derivOf B' f' b' (x * q') = derivOf B f b (x * q) := by
  unfold SimLoad at hf hb
  subst hf hb hq
  have e : x * (m * k ^ 2 * l ^ 2 * q) = m * k ^ 2 * l ^ 2 * (x * q) := by ring
  rw [e]
  generalize x * q = y
  have e3 : m * k ^ 2 * l ^ 3 = m * k ^ 2 * l ^ 2 * l := by ring
  rw [e3]
  generalize m * k ^ 2 * l ^ 2 = c at hc
  have h0 : (c * y = 0 ∨ B'.lat = 0 ∨ B'.long = 0) ↔ y = 0 ∨ B.lat = 0 ∨ B.long = 0 := by simp [hc, hr.lat, hr.long, hl]
  unfold derivOf
  by_cases h : y = 0 ∨ B.lat = 0 ∨ B.long = 0
  · rw [if_pos h, if_pos (h0.2 h)]
  · rw [if_neg h, if_neg (fun q => h (h0.1 q))]
    push Not at h
    obtain ⟨h1, h2, h3⟩ := h
    simp only [Loads.scale, ← mul_sub, hr.lat, hr.long, Option.some.injEq, Deriv.mk.injEq]
    refine ⟨?_, ?_, ?_, ?_, ?_, ?_, ?_, ?_, ?_⟩ <;> field_simp

theorem like_setAlpha (x : ℝ) : Lock (LikeWorld (B := B) (B' := B') l k m σ H) (fun _ _ => True) (setAlpha x) (setAlpha x) :=
  like_setAero fun d => ⟨rfl, rfl, rfl⟩
theorem like_setBeta (x : ℝ) : Lock (LikeWorld (B := B) (B' := B') l k m σ H) (fun _ _ => True) (setBeta x) (setBeta x) :=
  like_setAero fun d => ⟨rfl, rfl, rfl⟩
theorem like_setRoll {x x' : ℝ} (h : x' = k * x / l) : Lock (LikeWorld (B := B) (B' := B') l k m σ H) (fun _ _ => True) (setRoll x) (setRoll x') := by
  subst h; exact like_setAero fun d => ⟨rfl, rfl, rfl⟩
theorem like_setPitch {x x' : ℝ} (h : x' = k * x / l) : Lock (LikeWorld (B := B) (B' := B') l k m σ H) (fun _ _ => True) (setPitch x) (setPitch x') := by
  subst h; exact like_setAero fun d => ⟨rfl, rfl, rfl⟩
theorem like_setYaw {x x' : ℝ} (h : x' = k * x / l) : Lock (LikeWorld (B := B) (B' := B') l k m σ H) (fun _ _ => True) (setYaw x) (setYaw x') := by
  subst h; exact like_setAero fun d => ⟨rfl, rfl, rfl⟩

variable (hs : Lock (LikeWorld l k m σ H) (SimLoad l k m) (muSolve ps) (muSolve ps')) (hr : RefSim l B B') (hl : l ≠ 0) (hc : m * k ^ 2 * l ^ 2 ≠ 0)
include hs hr hl hc

theorem like_stabBody : Lock (LikeWorld l k m σ H) (fun a b => b = a) (stabBody ps) (stabBody ps') := by
  unfold stabBody
  refine (like_dynPressure hr).bind fun q q' hq => ?_
  refine (like_getAero (B := B) (B' := B') (l := l) (k := k) (m := m) (σ := σ) (H := H) (P := fun a b => b = a) (f := fun d => d.alpha.getD 0) (f' := fun d => d.alpha.getD 0) fun d V r _ _ => rfl).bind fun a a' ha => ?_
  subst ha
  refine (like_central hs (like_setAlpha _) (like_setAlpha _)).bind fun F F' hF => ?_
  refine (like_setAlpha _).bind fun _ _ _ => ?_
  refine (like_getAero (B := B) (B' := B') (l := l) (k := k) (m := m) (σ := σ) (H := H) (P := fun a b => b = a) (f := fun d => d.beta.getD 0) (f' := fun d => d.beta.getD 0) fun d V r _ _ => rfl).bind fun b b' hb => ?_
  subst hb
  refine (like_central hs (like_setBeta _) (like_setBeta _)).bind fun F2 F2' hF2 => ?_
  refine (like_setBeta _).bind fun _ _ _ => Lock.pure ?_
  rw [derivOf_alike hr hl hc hF.1 hF.2 _ _ _ hq, derivOf_alike hr hl hc hF2.1 hF2.2 _ _ _ hq]

theorem like_contBody : Lock (LikeWorld l k m σ H) (fun a b => b = a) (contBody ps) (contBody ps') := by
  unfold contBody
  refine (like_dynPressure hr).bind fun q q' hq => ?_
  refine (like_getCtrl _).bind fun a a' ha => ?_
  subst ha
  refine (like_central hs (like_setCtrl _) (like_setCtrl _)).bind fun F1 F1' h1 => ?_
  refine (like_setCtrl _).bind fun _ _ _ => (like_getCtrl _).bind fun a a' ha => ?_
  subst ha
  refine (like_central hs (like_setCtrl _) (like_setCtrl _)).bind fun F2 F2' h2 => ?_
  refine (like_setCtrl _).bind fun _ _ _ => (like_getCtrl _).bind fun a a' ha => ?_
  subst ha
  refine (like_central hs (like_setCtrl _) (like_setCtrl _)).bind fun F3 F3' h3 => ?_
  refine (like_setCtrl _).bind fun _ _ _ => (like_getCtrl _).bind fun a a' ha => ?_
  subst ha
  refine (like_central hs (like_setCtrl _) (like_setCtrl _)).bind fun F4 F4' h4 => ?_
  refine (like_setCtrl _).bind fun _ _ _ => Lock.pure ?_
  rw [derivOf_alike hr hl hc h1.1 h1.2 _ _ _ hq, derivOf_alike hr hl hc h2.1 h2.2 _ _ _ hq, derivOf_alike hr hl hc h3.1 h3.2 _ _ _ hq,
    derivOf_alike hr hl hc h4.1 h4.2 _ _ _ hq]

theorem like_dampBody : Lock (LikeWorld l k m σ H) (fun a b => b = a) (dampBody ps) (dampBody ps') := by
  unfold dampBody
  refine (like_getAero (B := B) (B' := B') (l := l) (k := k) (m := m) (σ := σ) (H := H) (P := fun a b => b = k * a) (f := fun d => d.Vmag.getD 10) (f' := fun d => d.Vmag.getD 10) fun d V r hV _ => ?_).bind fun V V' hV => ?_
  · simp [AeroDict.similar, AeroDict.divRates, AeroDict.reindex, AeroDict.faster, AeroDict.scaleSpeed, AeroDict.scaleDensity, hV]
  subst hV
  refine (like_dynPressure hr).bind fun q q' hq => ?_
  have h0 : (B'.lat = 0 ∨ B'.long = 0) ↔ B.lat = 0 ∨ B.long = 0 := by simp [hr.lat, hr.long, hl]
  by_cases h : B.lat = 0 ∨ B.long = 0
  · rw [if_pos h, if_pos (h0.2 h)]
    exact Lock.raise _
  rw [if_neg h, if_neg (fun q => h (h0.1 q))]
  have rate : ∀ o : Option ℝ, ((o.map (k * ·)).map (· / l)).getD 0 = k * o.getD 0 / l := fun o => by cases o <;> simp
  have step : ∀ L : ℝ, 0.005 * 2 * (k * V) / (l * L) = k * (0.005 * 2 * V / L) / l := fun L => by rw [mul_comm l L, ← div_div]; ring
  simp only [hr.lat, hr.long, step]
  refine (like_getAero (B := B) (B' := B') (l := l) (k := k) (m := m) (σ := σ) (H := H) (P := fun a b => b = k * a / l) (f := fun d => d.roll.getD 0) (f' := fun d => d.roll.getD 0) fun d V r hV _ => rate _).bind fun p p' hp => ?_
  subst hp
  refine (like_central hs (like_setRoll (by ring)) (like_setRoll (by ring))).bind fun F1 F1' h1 => ?_
  refine (like_setRoll rfl).bind fun _ _ _ => ?_
  refine (like_getAero (B := B) (B' := B') (l := l) (k := k) (m := m) (σ := σ) (H := H) (P := fun a b => b = k * a / l) (f := fun d => d.pitch.getD 0) (f' := fun d => d.pitch.getD 0) fun d V r hV _ => rate _).bind fun p p' hp => ?_
  subst hp
  refine (like_central hs (like_setPitch (by ring)) (like_setPitch (by ring))).bind fun F2 F2' h2 => ?_
  refine (like_setPitch rfl).bind fun _ _ _ => ?_
  refine (like_getAero (B := B) (B' := B') (l := l) (k := k) (m := m) (σ := σ) (H := H) (P := fun a b => b = k * a / l) (f := fun d => d.yaw.getD 0) (f' := fun d => d.yaw.getD 0) fun d V r hV _ => rate _).bind fun p p' hp => ?_
  subst hp
  refine (like_central hs (like_setYaw (by ring)) (like_setYaw (by ring))).bind fun F3 F3' h3 => ?_
  refine (like_setYaw rfl).bind fun _ _ _ => Lock.pure ?_
  rw [derivOf_alike hr hl hc h1.1 h1.2 _ _ _ hq, derivOf_alike hr hl hc h2.1 h2.2 _ _ _ hq, derivOf_alike hr hl hc h3.1 h3.2 _ _ _ hq]

omit hs hr hl hc in
theorem LikeWorld.given {w : World B} {w' : World B'} (h : LikeWorld l k m σ H w w') :
    aeroGiven w = true ∧ aeroGiven w' = true ∧ ctrlGiven w' = ctrlGiven w := by
  obtain ⟨d, V, r, hd, hV, hr, hd'⟩ := h.aero
  have ht : d.truthy = true := by simp [AeroDict.truthy, hV]
  refine ⟨by simp [aeroGiven, hd, ht], by simp [aeroGiven, hd', AeroDict.similar, AeroDict.divRates, AeroDict.reindex, AeroDict.faster, AeroDict.scaleSpeed, AeroDict.scaleDensity, AeroDict.truthy, hV], ?_⟩
  unfold ctrlGiven
  rw [h.ctrl]

theorem like_stab : Lock (LikeWorld l k m σ H) (fun a b => b = a) (stabilityDerivatives ps) (stabilityDerivatives ps') := by
  intro w w' h
  obtain ⟨g, g', -⟩ := h.given
  unfold stabilityDerivatives
  rw [get_bind, get_bind, if_pos g, if_pos g']
  exact like_stabBody hs hr hl hc w w' h

theorem like_damp : Lock (LikeWorld l k m σ H) (fun a b => b = a) (dampingDerivatives ps) (dampingDerivatives ps') := by
  intro w w' h
  obtain ⟨g, g', -⟩ := h.given
  unfold dampingDerivatives
  rw [get_bind, get_bind, if_pos g, if_pos g']
  exact like_dampBody hs hr hl hc w w' h

theorem like_cont : Lock (LikeWorld l k m σ H) (fun a b => b = a) (controlDerivatives ps) (controlDerivatives ps') := by
  intro w w' h
  obtain ⟨-, -, g⟩ := h.given
  unfold controlDerivatives
  rw [get_bind, get_bind, g]
  split
  · exact like_contBody hs hr hl hc w w' h
  · have := like_contBody hs hr hl hc { w with ctrl := some zeroCtrlDict } { w' with ctrl := some zeroCtrlDict } ⟨h.aero, rfl, h.held⟩
    unfold withCtrl
    obtain ⟨h1, h2⟩ := this
    exact ⟨h1, h2.aero, h.ctrl, h2.held⟩

theorem like_derivatives : Lock (LikeWorld l k m σ H) (fun a b => b = a) (derivatives ps none) (derivatives ps' none) := by
  unfold derivatives
  rw [hr.wings]
  split
  · refine (like_stab hs hr hl hc).bind fun s s' e1 => (like_cont hs hr hl hc).bind fun c c' e2 => (like_damp hs hr hl hc).bind fun e e' e3 => ?_
    subst e1 e2 e3
    exact (Lock.ret (P := fun _ _ => True) trivial).bind fun _ _ _ => Lock.pure rfl
  · exact Lock.raise _

end

end Verif
