import Verif.Lemmas.Lock

/-!
# Derivatives and stall angles of wings-only planes do not depend on airspeed and density (C56)

All velocities and rotation rates are multiplied by `k > 0` (`AeroDict.scaleSpeed`), all densities by `m ≠ 0`
(`AeroDict.scaleDensity`).
-/

namespace Verif
open V3 Act

variable {n : ℕ} {G : LLGeom (Fin n)} {Sw lat long : ℝ}

theorem AeroDict.truthy_faster (k m : ℝ) (d : AeroDict (Fin n)) : (d.faster k m).truthy = d.truthy := by
  unfold faster; rw [truthy_scaleDensity, truthy_scaleSpeed]

/-- what a solve with `V_mag` and `rho` given leaves in the object -/
theorem llSolve_leaves (st : LLState (Fin n)) (d : AeroDict (Fin n)) (c : Option CtrlDict) (ht : d.truthy = true)
    (hV : d.Vmag.isSome) (hr : d.rho.isSome) :
    (llSolve G st "linear" (some d) c).2.ctrl = (processCtrl G st c).ctrl ∧
    (llSolve G st "linear" (some d) c).2.results =
      match (llSolve G st "linear" (some d) c).1 with
      | .ok R => some R
      | .error .linAlg => st.results
      | .error _ => none := by
  obtain ⟨V, hV⟩ := Option.isSome_iff_exists.1 hV
  obtain ⟨r, hr⟩ := Option.isSome_iff_exists.1 hr
  have ha : ∃ a, arrOf G d = .ok a := by
    unfold arrOf
    rw [hV, hr]
    cases d.localState <;> exact ⟨_, rfl⟩
  obtain ⟨a, ha⟩ := ha
  have h := processAero_explicit G st d ht
  rw [ha] at h
  obtain ⟨rt, h⟩ := h
  unfold llSolve
  rw [h]
  simp only [if_true]
  have hc := processCtrl_ctrl G st { st with v := a.v, u := a.u, rho := a.rho, rates := rt } c rfl
  have hres : (processCtrl G { st with v := a.v, u := a.u, rho := a.rho, rates := rt } c).results = st.results := by
    unfold processCtrl
    cases c with
    | none => rfl
    | some c => simp only; split <;> rfl
  rcases runLinear G (processCtrl G { st with v := a.v, u := a.u, rho := a.rho, rates := rt } c) with e | R
  · cases e
    all_goals first
      | exact ⟨hc, hres⟩
      | exact ⟨hc, rfl⟩
  · exact ⟨hc, rfl⟩

/-- two solves, the second `k` times as fast in air `m` times as dense -/
theorem llSolve_faster {k m : ℝ} (hk : 0 < k) {st st' : LLState (Fin n)} (hst : st'.ctrl = st.ctrl)
    (d : AeroDict (Fin n)) (c : Option CtrlDict) (ht : d.truthy = true) :
    Outcome (fun R R' => R'.total = R.total.scale (k ^ 2 * m) (k ^ 2 * m) ∧ R'.cl = R.cl)
      (llSolve G st "linear" (some d) c).1 (llSolve G st' "linear" (some (d.faster k m)) c).1 := by
  have e : (llSolve G st' "linear" (some (d.faster k m)) c).1 = (llSolve G st "linear" (some (d.faster k m)) c).1 := by
    rw [llSolve_aero _ _ _ _ (by rw [AeroDict.truthy_faster, ht]), llSolve_aero _ _ _ _ (by rw [AeroDict.truthy_faster, ht]),
      processCtrl_ctrl_congr G c hst]
  rw [e]
  have h1 := C24_speed_scaling G st d c k hk ht
  have h2 := C25_density_scaling G st (d.scaleSpeed k) c m (by rw [truthy_scaleSpeed, ht])
  show Outcome _ _ (llSolve G st "linear" (some ((d.scaleSpeed k).scaleDensity m)) c).1
  rcases ha : (llSolve G st "linear" (some d) c).1 with e1 | R1 <;>
    rcases hb : (llSolve G st "linear" (some (d.scaleSpeed k)) c).1 with e2 | R2 <;>
    rcases hc : (llSolve G st "linear" (some ((d.scaleSpeed k).scaleDensity m)) c).1 with e3 | R3 <;>
    rw [ha, hb] at h1 <;> rw [hb, hc] at h2
  · exact Eq.trans (b := e2) h1 h2
  · exact h2.elim
  · exact h1.elim
  · exact h1.elim
  · exact h1.elim
  · exact h1.elim
  · exact h2.elim
  · obtain ⟨h1, s1, -⟩ := h1
    obtain ⟨h2, s2, -⟩ := h2
    refine ⟨?_, funext fun i => ?_⟩
    · rw [h2.total, h1.total]
      simp only [Loads.scale, Loads.mk.injEq]
      refine ⟨?_, ?_, ?_, ?_, ?_, ?_, ?_, ?_, ?_⟩ <;> ring
    · have a1 := s1.cl i
      have a2 := s2.cl i
      simp only [Equiv.refl_apply] at a1 a2
      rw [a2, a1]

/-- the two worlds that run in lockstep -/
structure Faster (k m : ℝ) (w w' : World (wingsBackend G Sw lat long)) : Prop where
  aero : ∃ d V r, w.aero = some d ∧ d.truthy = true ∧ d.Vmag = some V ∧ d.rho = some r ∧ w'.aero = some (d.faster k m)
  ctrl : w'.ctrl = w.ctrl
  held : LLState.ctrl w'.st = LLState.ctrl w.st
  stall : (wingsBackend G Sw lat long).stallLoc w'.st = (wingsBackend G Sw lat long).stallLoc w.st

variable {k m : ℝ} {ps : Option Unit}

/-- the results of one solve: `k² m` times the loads -/
def Times (k m : ℝ) (a a' : Loads) : Prop := a' = a.scale (k ^ 2 * m) (k ^ 2 * m)

theorem lock_muSolve (hk : 0 < k) :
    Lock (Faster (G := G) (Sw := Sw) (lat := lat) (long := long) k m) (Times k m) (muSolve ps) (muSolve ps) := by
  intro w w' h
  obtain ⟨d, V, r, hd, ht, hV, hr, hd'⟩ := h.aero
  have ht' : (d.faster k m).truthy = true := by rw [AeroDict.truthy_faster, ht]
  rw [wings_muSolve hd ht, wings_muSolve hd' ht', h.ctrl]
  have ho := llSolve_faster (G := G) (m := m) hk h.held d w.ctrl ht
  obtain ⟨c1, r1⟩ := llSolve_leaves (G := G) w.st d w.ctrl ht (by rw [hV]; rfl) (by rw [hr]; rfl)
  obtain ⟨c2, r2⟩ := llSolve_leaves (G := G) w'.st (d.faster k m) w.ctrl ht'
    (by simp [AeroDict.faster, AeroDict.scaleSpeed, AeroDict.scaleDensity, hV])
    (by simp [AeroDict.faster, AeroDict.scaleSpeed, AeroDict.scaleDensity, hr])
  have hc := processCtrl_ctrl_congr G w.ctrl h.held
  have hst : (LLState.results w'.st).bind (fun R => findStall G.S R.cl) =
      (LLState.results w.st).bind (fun R => findStall G.S R.cl) := h.stall
  rcases ha : llSolve G w.st "linear" (some d) w.ctrl with ⟨e | R, st1⟩ <;>
    rcases hb : llSolve G w'.st "linear" (some (d.faster k m)) w.ctrl with ⟨e' | R', st1'⟩ <;>
    rw [ha, hb] at ho <;> rw [ha] at c1 r1 <;> rw [hb] at c2 r2
  · refine ⟨ho, ⟨d, V, r, hd, ht, hV, hr, hd'⟩, rfl, ?_, ?_⟩
    · exact c2.trans (hc.trans c1.symm)
    · have ho : e = e' := ho
      subst ho
      show (LLState.results st1').bind _ = (LLState.results st1).bind _
      simp only at r1 r2
      rw [r1, r2]
      cases e
      case linAlg => exact hst
      all_goals rfl
  · exact ho.elim
  · exact ho.elim
  · obtain ⟨hT, hcl⟩ : R'.total = R.total.scale (k ^ 2 * m) (k ^ 2 * m) ∧ R'.cl = R.cl := ho
    refine ⟨?_, ⟨d, V, r, hd, ht, hV, hr, hd'⟩, rfl, c2.trans (hc.trans c1.symm), ?_⟩
    · show Times k m _ _
      unfold Times
      rw [zero_add_loads, zero_add_loads, hT]
    · show (LLState.results st1').bind _ = (LLState.results st1).bind _
      simp only at r1 r2
      rw [r1, r2]
      simp only [Option.bind_some, hcl]

/-- setting an entry of the aero state -/
theorem lock_setAero {f f' : AeroDict (Fin n) → AeroDict (Fin n)}
    (hf : ∀ d, (f d).Vmag = d.Vmag ∧ (f d).rho = d.rho ∧ (f d).truthy = true ∧ f' (d.faster k m) = (f d).faster k m) :
    Lock (Faster (G := G) (Sw := Sw) (lat := lat) (long := long) k m) (fun _ _ => True) (setAero f) (setAero f') := by
  intro w w' h
  obtain ⟨d, V, r, hd, ht, hV, hr, hd'⟩ := h.aero
  obtain ⟨h1, h2, h3, h4⟩ := hf d
  rw [setAero_some hd, setAero_some hd']
  exact ⟨trivial, ⟨f d, V, r, rfl, h3, h1.trans hV, h2.trans hr, by rw [h4]⟩, h.ctrl, h.held, h.stall⟩

theorem lock_setCtrl (f : CtrlDict → CtrlDict) :
    Lock (Faster (G := G) (Sw := Sw) (lat := lat) (long := long) k m) (fun _ _ => True) (setCtrl f) (setCtrl f) := by
  intro w w' h
  unfold setCtrl
  rw [h.ctrl]
  rcases hc : w.ctrl with _ | c
  · exact ⟨rfl, h⟩
  · exact ⟨trivial, h.aero, rfl, h.held, h.stall⟩

theorem lock_getCtrl {α : Type} (f : CtrlDict → α) :
    Lock (Faster (G := G) (Sw := Sw) (lat := lat) (long := long) k m) (fun a b => b = a) (getCtrl f) (getCtrl f) := by
  intro w w' h
  unfold getCtrl
  rw [h.ctrl]
  rcases w.ctrl with _ | c
  · exact ⟨rfl, h⟩
  · exact ⟨rfl, h⟩

theorem lock_getAero {α : Type} {P : α → α → Prop} {f : AeroDict (Fin n) → α}
    (hf : ∀ d V r, d.Vmag = some V → d.rho = some r → P (f d) (f (d.faster k m))) :
    Lock (Faster (G := G) (Sw := Sw) (lat := lat) (long := long) k m) P (getAero f) (getAero f) := by
  intro w w' h
  obtain ⟨d, V, r, hd, ht, hV, hr, hd'⟩ := h.aero
  rw [getAero_some hd, getAero_some hd']
  exact ⟨hf d V r hV hr, h⟩

theorem lock_central (hk : 0 < k) {set : ℝ → Act (World (wingsBackend G Sw lat long)) Unit} {x0 x0' δ δ' : ℝ}
    (h1 : Lock (Faster k m) (fun _ _ => True) (set (x0 - δ)) (set (x0' - δ')))
    (h2 : Lock (Faster k m) (fun _ _ => True) (set (x0 + δ)) (set (x0' + δ'))) :
    Lock (Faster k m) (fun a b => Times k m a.1 b.1 ∧ Times k m a.2 b.2) (central ps set x0 δ)
      (central ps set x0' δ') := by
  unfold central
  refine h1.bind fun _ _ _ => (lock_muSolve hk).bind fun b b' hb => h2.bind fun _ _ _ => (lock_muSolve hk).bind fun f f' hf => ?_
  exact Lock.pure ⟨hf, hb⟩

theorem lock_dynPressure :
    Lock (Faster (G := G) (Sw := Sw) (lat := lat) (long := long) k m) (fun a b => b = k ^ 2 * m * a) dynPressure
      dynPressure := by
  show Lock _ _ (getAero _) (getAero _)
  refine lock_getAero fun d V r hV hr => ?_
  simp only [dynPress, AeroDict.faster, AeroDict.scaleSpeed, AeroDict.scaleDensity, hV, hr, Option.map_some, Option.getD_some]
  ring

/-- the non-dimensional derivative is the same -/
theorem derivOf_times (B : Backend (Fin n)) (hc : k ^ 2 * m ≠ 0) {f f' b b' : Loads} (hf : Times k m f f')
    (hb : Times k m b b') (x q q' : ℝ) (hq : q' = k ^ 2 * m * q) : derivOf B f' b' (x * q') = derivOf B f b (x * q) := by
  unfold Times at hf hb
  subst hf hb hq
  have e : x * (k ^ 2 * m * q) = k ^ 2 * m * (x * q) := by ring
  rw [e]
  generalize x * q = y
  generalize k ^ 2 * m = c at hc
  have h0 : (c * y = 0) ↔ y = 0 := by simp [hc]
  unfold derivOf
  simp only [h0]
  split
  · rfl
  · simp only [Loads.scale, ← mul_sub, mul_div_mul_left _ _ hc]

theorem truthy_some {d : AeroDict (Fin n)} (h : d.alpha.isSome ∨ d.beta.isSome ∨ d.roll.isSome ∨ d.pitch.isSome ∨
    d.yaw.isSome) : d.truthy = true := by
  unfold AeroDict.truthy
  rcases h with h | h | h | h | h <;> simp [h]

theorem lock_setAlpha (x : ℝ) : Lock (Faster (G := G) (Sw := Sw) (lat := lat) (long := long) k m) (fun _ _ => True)
    (setAlpha x) (setAlpha x) := lock_setAero fun d => ⟨rfl, rfl, truthy_some (by simp), rfl⟩
theorem lock_setBeta (x : ℝ) : Lock (Faster (G := G) (Sw := Sw) (lat := lat) (long := long) k m) (fun _ _ => True)
    (setBeta x) (setBeta x) := lock_setAero fun d => ⟨rfl, rfl, truthy_some (by simp), rfl⟩
theorem lock_setRoll {x x' : ℝ} (h : x' = k * x) : Lock (Faster (G := G) (Sw := Sw) (lat := lat) (long := long) k m)
    (fun _ _ => True) (setRoll x) (setRoll x') := by
  subst h; exact lock_setAero fun d => ⟨rfl, rfl, truthy_some (by simp), rfl⟩
theorem lock_setPitch {x x' : ℝ} (h : x' = k * x) : Lock (Faster (G := G) (Sw := Sw) (lat := lat) (long := long) k m)
    (fun _ _ => True) (setPitch x) (setPitch x') := by
  subst h; exact lock_setAero fun d => ⟨rfl, rfl, truthy_some (by simp), rfl⟩
theorem lock_setYaw {x x' : ℝ} (h : x' = k * x) : Lock (Faster (G := G) (Sw := Sw) (lat := lat) (long := long) k m)
    (fun _ _ => True) (setYaw x) (setYaw x') := by
  subst h; exact lock_setAero fun d => ⟨rfl, rfl, truthy_some (by simp), rfl⟩

theorem lock_stabBody (hk : 0 < k) (hm : m ≠ 0) :
    Lock (Faster (G := G) (Sw := Sw) (lat := lat) (long := long) k m) (fun a b => b = a) (stabBody ps) (stabBody ps) := by
  have hc : k ^ 2 * m ≠ 0 := mul_ne_zero (pow_ne_zero _ hk.ne') hm
  unfold stabBody
  refine lock_dynPressure.bind fun q q' hq => ?_
  refine (lock_getAero (P := fun a b => b = a) fun d V r _ _ => rfl).bind fun a a' ha => ?_
  subst ha
  refine (lock_central hk (lock_setAlpha _) (lock_setAlpha _)).bind fun F F' hF => ?_
  refine (lock_setAlpha _).bind fun _ _ _ => ?_
  refine (lock_getAero (P := fun a b => b = a) fun d V r _ _ => rfl).bind fun b b' hb => ?_
  subst hb
  refine (lock_central hk (lock_setBeta _) (lock_setBeta _)).bind fun H H' hH => ?_
  refine (lock_setBeta _).bind fun _ _ _ => Lock.pure ?_
  rw [derivOf_times _ hc hF.1 hF.2 _ _ _ hq, derivOf_times _ hc hH.1 hH.2 _ _ _ hq]

theorem lock_contBody (hk : 0 < k) (hm : m ≠ 0) :
    Lock (Faster (G := G) (Sw := Sw) (lat := lat) (long := long) k m) (fun a b => b = a) (contBody ps) (contBody ps) := by
  have hc : k ^ 2 * m ≠ 0 := mul_ne_zero (pow_ne_zero _ hk.ne') hm
  unfold contBody
  refine lock_dynPressure.bind fun q q' hq => ?_
  refine (lock_getCtrl _).bind fun a a' ha => ?_
  subst ha
  refine (lock_central hk (lock_setCtrl _) (lock_setCtrl _)).bind fun F1 F1' h1 => ?_
  refine (lock_setCtrl _).bind fun _ _ _ => (lock_getCtrl _).bind fun a a' ha => ?_
  subst ha
  refine (lock_central hk (lock_setCtrl _) (lock_setCtrl _)).bind fun F2 F2' h2 => ?_
  refine (lock_setCtrl _).bind fun _ _ _ => (lock_getCtrl _).bind fun a a' ha => ?_
  subst ha
  refine (lock_central hk (lock_setCtrl _) (lock_setCtrl _)).bind fun F3 F3' h3 => ?_
  refine (lock_setCtrl _).bind fun _ _ _ => (lock_getCtrl _).bind fun a a' ha => ?_
  subst ha
  refine (lock_central hk (lock_setCtrl _) (lock_setCtrl _)).bind fun F4 F4' h4 => ?_
  refine (lock_setCtrl _).bind fun _ _ _ => Lock.pure ?_
  rw [derivOf_times _ hc h1.1 h1.2 _ _ _ hq, derivOf_times _ hc h2.1 h2.2 _ _ _ hq, derivOf_times _ hc h3.1 h3.2 _ _ _ hq,
    derivOf_times _ hc h4.1 h4.2 _ _ _ hq]

theorem getD_mul (o : Option ℝ) : (o.map (k * ·)).getD 0 = k * o.getD 0 := by cases o <;> simp

theorem lock_dampBody (hk : 0 < k) (hm : m ≠ 0) :
    Lock (Faster (G := G) (Sw := Sw) (lat := lat) (long := long) k m) (fun a b => b = a) (dampBody ps) (dampBody ps) := by
  have hc : k ^ 2 * m ≠ 0 := mul_ne_zero (pow_ne_zero _ hk.ne') hm
  unfold dampBody
  refine (lock_getAero (P := fun a b => b = k * a) fun d V r hV _ => ?_).bind fun V V' hV => ?_
  · simp [AeroDict.faster, AeroDict.scaleSpeed, AeroDict.scaleDensity, hV]
  subst hV
  refine lock_dynPressure.bind fun q q' hq => ?_
  split
  · exact Lock.raise _
  have step : ∀ L : ℝ, 0.005 * 2 * (k * V) / L = k * (0.005 * 2 * V / L) := fun L => by ring
  simp only [step]
  refine (lock_getAero (P := fun a b => b = k * a) fun d V r hV _ => getD_mul _).bind fun p p' hp => ?_
  subst hp
  refine (lock_central hk (lock_setRoll (by ring)) (lock_setRoll (by ring))).bind fun F1 F1' h1 => ?_
  refine (lock_setRoll rfl).bind fun _ _ _ => ?_
  refine (lock_getAero (P := fun a b => b = k * a) fun d V r hV _ => getD_mul _).bind fun p p' hp => ?_
  subst hp
  refine (lock_central hk (lock_setPitch (by ring)) (lock_setPitch (by ring))).bind fun F2 F2' h2 => ?_
  refine (lock_setPitch rfl).bind fun _ _ _ => ?_
  refine (lock_getAero (P := fun a b => b = k * a) fun d V r hV _ => getD_mul _).bind fun p p' hp => ?_
  subst hp
  refine (lock_central hk (lock_setYaw (by ring)) (lock_setYaw (by ring))).bind fun F3 F3' h3 => ?_
  refine (lock_setYaw rfl).bind fun _ _ _ => Lock.pure ?_
  rw [derivOf_times _ hc h1.1 h1.2 _ _ _ hq, derivOf_times _ hc h2.1 h2.2 _ _ _ hq, derivOf_times _ hc h3.1 h3.2 _ _ _ hq]

/-- the truth values of the arguments -/
theorem Faster.given {w w' : World (wingsBackend G Sw lat long)} (h : Faster k m w w') :
    aeroGiven w = true ∧ aeroGiven w' = true ∧ ctrlGiven w' = ctrlGiven w := by
  obtain ⟨d, V, r, hd, ht, hV, hr, hd'⟩ := h.aero
  refine ⟨by simp [aeroGiven, hd, ht], by simp [aeroGiven, hd', ht, AeroDict.truthy_faster], ?_⟩
  unfold ctrlGiven
  rw [h.ctrl]

theorem lock_stab (hk : 0 < k) (hm : m ≠ 0) : Lock (Faster (G := G) (Sw := Sw) (lat := lat) (long := long) k m)
    (fun a b => b = a) (stabilityDerivatives ps) (stabilityDerivatives ps) := by
  intro w w' h
  obtain ⟨g, g', -⟩ := h.given
  unfold stabilityDerivatives
  rw [get_bind, get_bind, if_pos g, if_pos g']
  exact lock_stabBody hk hm w w' h

theorem lock_damp (hk : 0 < k) (hm : m ≠ 0) : Lock (Faster (G := G) (Sw := Sw) (lat := lat) (long := long) k m)
    (fun a b => b = a) (dampingDerivatives ps) (dampingDerivatives ps) := by
  intro w w' h
  obtain ⟨g, g', -⟩ := h.given
  unfold dampingDerivatives
  rw [get_bind, get_bind, if_pos g, if_pos g']
  exact lock_dampBody hk hm w w' h

theorem lock_cont (hk : 0 < k) (hm : m ≠ 0) : Lock (Faster (G := G) (Sw := Sw) (lat := lat) (long := long) k m)
    (fun a b => b = a) (controlDerivatives ps) (controlDerivatives ps) := by
  intro w w' h
  obtain ⟨-, -, g⟩ := h.given
  unfold controlDerivatives
  rw [get_bind, get_bind, g]
  split
  · exact lock_contBody hk hm w w' h
  · have := lock_contBody (ps := ps) hk hm { w with ctrl := some zeroCtrlDict } { w' with ctrl := some zeroCtrlDict }
      ⟨h.aero, rfl, h.held, h.stall⟩
    unfold withCtrl
    obtain ⟨h1, h2⟩ := this
    exact ⟨h1, h2.aero, h.ctrl, h2.held, h2.stall⟩

theorem lock_stallLoop (hk : 0 < k) (fuel : ℕ) (a : ℝ) :
    Lock (Faster (G := G) (Sw := Sw) (lat := lat) (long := long) k m)
      (Option.Rel fun r r' => r' = { r with lift := k ^ 2 * m * r.lift }) (stallLoop ps fuel a) (stallLoop ps fuel a) := by
  induction fuel generalizing a with
  | zero => exact Lock.ret Option.Rel.none
  | succ fuel ih =>
    intro s s' hs
    have e := fun w => congrFun (stallLoop.eq_2 (B := wingsBackend G Sw lat long) ps a fuel) w
    refine (e s).symm ▸ (e s').symm ▸ ?_
    refine Lock.bind (lock_setAlpha a) (fun _ _ _ => (lock_muSolve hk).tryFinite.bind fun r r' hr =>
      Lock.get.bind fun w w' hw => ?_) s s' hs
    rw [hw.stall]
    cases (wingsBackend G Sw lat long).stallLoc w.st with
    | none => exact ih _
    | some s =>
      cases hr with
      | none => exact Lock.raise _
      | some hr =>
        refine Lock.pure (Option.Rel.some ?_)
        unfold Times at hr
        subst hr
        rfl

theorem lock_stallOnset (hk : 0 < k) (fuel : ℕ) :
    Lock (Faster (G := G) (Sw := Sw) (lat := lat) (long := long) k m)
      (Option.Rel fun r r' => r' = { r with lift := k ^ 2 * m * r.lift }) (stallOnset ps fuel) (stallOnset ps fuel) := by
  intro w w' h
  obtain ⟨g, g', -⟩ := h.given
  unfold stallOnset
  rw [get_bind, get_bind, if_pos g, if_pos g']
  exact lock_stallLoop hk fuel 0 w w' h

/-- starting point: the same object, the same controls, the flight condition `k` times as fast and `m` times as dense -/
theorem Faster.start {w : World (wingsBackend G Sw lat long)} {d : AeroDict (Fin n)} (hd : w.aero = some d)
    (hV : d.Vmag.isSome) (hr : d.rho.isSome) : Faster k m w { w with aero := some (d.faster k m) } := by
  obtain ⟨V, hV⟩ := Option.isSome_iff_exists.1 hV
  obtain ⟨r, hr⟩ := Option.isSome_iff_exists.1 hr
  exact ⟨⟨d, V, r, hd, by simp [AeroDict.truthy, hV], hV, hr, rfl⟩, rfl, rfl, rfl⟩

/-- **C56, derivatives.** For every wings-only plane and every history of the object: `derivatives` called with airspeed and
rotation rates multiplied by `k > 0` and density multiplied by `m ≠ 0` returns the same numbers — stability, control and
damping derivatives and static margin — or raises the same exception. -/
theorem C56_derivatives (hk : 0 < k) (hm : m ≠ 0) {w : World (wingsBackend G Sw lat long)} {d : AeroDict (Fin n)}
    (hd : w.aero = some d) (hV : d.Vmag.isSome) (hr : d.rho.isSome) :
    (stabilityDerivatives ps { w with aero := some (d.faster k m) }).1 = (stabilityDerivatives ps w).1 ∧
    (controlDerivatives ps { w with aero := some (d.faster k m) }).1 = (controlDerivatives ps w).1 ∧
    (dampingDerivatives ps { w with aero := some (d.faster k m) }).1 = (dampingDerivatives ps w).1 ∧
    (derivatives ps none { w with aero := some (d.faster k m) }).1 = (derivatives ps none w).1 := by
  have h := Faster.start (k := k) (m := m) hd hV hr
  refine ⟨(lock_stab hk hm _ _ h).1.eq, (lock_cont hk hm _ _ h).1.eq, (lock_damp hk hm _ _ h).1.eq, ?_⟩
  have : Lock (Faster (G := G) (Sw := Sw) (lat := lat) (long := long) k m) (fun a b => b = a) (derivatives ps none)
      (derivatives ps none) := by
    unfold derivatives
    rw [if_pos (show (wingsBackend G Sw lat long).hasWings = true from rfl)]
    refine (lock_stab hk hm).bind fun s s' hs => (lock_cont hk hm).bind fun c c' hc => (lock_damp hk hm).bind fun e e' he => ?_
    subst hs hc he
    exact (Lock.ret (P := fun _ _ => True) trivial).bind fun _ _ _ => Lock.pure rfl
  exact (this _ _ h).1.eq

/-- **C56, stall.** For every wings-only plane and every history of the object, at airspeed and rotation rates multiplied by
`k > 0` and density multiplied by `m`: `stall_onset` takes the same number of solves, reports the same wing, spanwise
location and angle of attack, and `k² m` times the lift — or raises the same exception. -/
theorem C56_stall (hk : 0 < k) {w : World (wingsBackend G Sw lat long)} {d : AeroDict (Fin n)}
    (hd : w.aero = some d) (hV : d.Vmag.isSome) (hr : d.rho.isSome) (fuel : ℕ) :
    Outcome (Option.Rel fun r r' => r'.wing = r.wing ∧ r'.span = r.span ∧ r'.alpha = r.alpha ∧
        r'.lift = k ^ 2 * m * r.lift)
      (stallOnset ps fuel w).1 (stallOnset ps fuel { w with aero := some (d.faster k m) }).1 := by
  have h := (lock_stallOnset (ps := ps) hk fuel _ _ (Faster.start (k := k) (m := m) hd hV hr)).1
  refine h.mono fun r r' _ _ hrel => ?_
  cases hrel with
  | none => exact Option.Rel.none
  | some h => subst h; exact Option.Rel.some ⟨rfl, rfl, rfl, rfl⟩

/-- the lift of a single solve scales in the same way -/
theorem C56_lift (hk : 0 < k) {w : World (wingsBackend G Sw lat long)} {d : AeroDict (Fin n)}
    (hd : w.aero = some d) (hV : d.Vmag.isSome) (hr : d.rho.isSome) :
    Outcome (fun r r' => r' = r.scale (k ^ 2 * m) (k ^ 2 * m)) (muSolve ps w).1
      (muSolve ps { w with aero := some (d.faster k m) }).1 :=
  (lock_muSolve hk _ _ (Faster.start (k := k) (m := m) hd hV hr)).1

end Verif
