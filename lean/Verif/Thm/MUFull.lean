import Verif.Model.MachUpFull
import Verif.Thm.MUFrame
import Verif.Thm.LLKernel
import Verif.Thm.LLState
import Verif.Thm.Slipstream

/-!
# Planes with wings and propellers: totals, wind axes and the caller's dictionaries (C21, C39, C40, C41)
-/

namespace Verif
open V3 Act

variable {ι : Type} {B : Backend ι}

/-- the `aero_state` a `solve` works with: the caller's if it is given and not empty, otherwise the default one -/
noncomputable def usedAero (w : World B) : AeroDict ι :=
  if aeroGiven w then w.aero.getD {} else { Vmag := some 10, rho := some 0.0023769, alpha := some 0 }

/-- a result entry of a part of the plane; a missing part counts as zero -/
def entry (o : Option Loads) (f : Loads → ℝ) : ℝ := o.elim 0 f

theorem solveParts_ok {ps : Option B.π} {w w' : World B} {wing : Option (Sol ι)} {prop : Option PropTotals} {T : Loads} {d : AeroDict ι}
    (hd : w.aero = some d) (h : solveParts ps w = (.ok (wing, prop, T), w')) :
    ∃ field st1,
      (if B.hasProps then ∃ r, prop = some r ∧ B.propSolve d ps w.st = (.ok (r, field), st1)
        else prop = none ∧ field = none ∧ st1 = w.st) ∧
      (if B.hasWings then ∃ R, wing = some R ∧
          B.wingSolve { d with localState := field.or d.localState } w.ctrl st1 = (.ok R, w'.st)
        else wing = none ∧ w'.st = st1) ∧
      T = totalOf prop wing ∧ w'.aero = some { d with localState := field.or d.localState } ∧ w'.ctrl = w.ctrl ∧
      w'.objs = w.objs ++ [T] ∧ w'.files = w.files := by
  unfold solveParts at h
  rw [bind_of_ok (show getAero id w = (.ok d, w) by unfold getAero; rw [hd]; rfl)] at h
  obtain ⟨prop', w1, h1, h⟩ := bind_ok.1 h
  obtain ⟨wing', w2, h2, h⟩ := bind_ok.1 h
  simp only [change_bind, pure_run, Prod.mk.injEq, Except.ok.injEq] at h
  obtain ⟨⟨rfl, rfl, rfl⟩, rfl⟩ := h
  have hp : ∃ field, (if B.hasProps then ∃ r, prop' = some r ∧ B.propSolve d ps w.st = (.ok (r, field), w1.st)
        else prop' = none ∧ field = none ∧ w1.st = w.st) ∧
      w1 = { w with st := w1.st, aero := some { d with localState := field.or d.localState } } := by
    unfold solveProps at h1
    split_ifs at h1 ⊢ with hP
    · obtain ⟨⟨r, field⟩, w3, h3, h1⟩ := bind_ok.1 h1
      unfold onSolver at h3
      rcases hs : B.propSolve d ps w.st with ⟨x, st⟩
      rw [hs] at h3
      simp only [Prod.mk.injEq] at h3
      obtain ⟨rfl, rfl⟩ := h3
      rcases field with _ | f
      · simp only [ret_bind_run, pure_run, Prod.mk.injEq, Except.ok.injEq] at h1
        obtain ⟨rfl, rfl⟩ := h1
        refine ⟨none, ⟨r, rfl, rfl⟩, ?_⟩
        simp [← hd]
      · simp only at h1
        unfold setAero at h1
        simp only [bind_def, hd, pure_run, Prod.mk.injEq, Except.ok.injEq] at h1
        obtain ⟨rfl, rfl⟩ := h1
        exact ⟨some f, ⟨r, rfl, rfl⟩, rfl⟩
    · simp only [pure_run, Prod.mk.injEq, Except.ok.injEq] at h1
      obtain ⟨rfl, rfl⟩ := h1
      refine ⟨none, ⟨rfl, rfl, rfl⟩, ?_⟩
      simp [← hd]
  obtain ⟨field, hp1, hp2⟩ := hp
  have ha : w1.aero = some { d with localState := field.or d.localState } := by rw [hp2]
  have hc : w1.ctrl = w.ctrl := by rw [hp2]
  have ho : w1.objs = w.objs := by rw [hp2]
  have hf : w1.files = w.files := by rw [hp2]
  have hw : (if B.hasWings then ∃ R, wing' = some R ∧
          B.wingSolve { d with localState := field.or d.localState } w.ctrl w1.st = (.ok R, w2.st)
        else wing' = none ∧ w2.st = w1.st) ∧ w2 = { w1 with st := w2.st } := by
    unfold solveWings at h2
    split_ifs at h2 ⊢ with hW
    · rw [get_bind] at h2
      obtain ⟨R, w3, h3, h2⟩ := bind_ok.1 h2
      simp only [pure_run, Prod.mk.injEq, Except.ok.injEq] at h2
      obtain ⟨rfl, rfl⟩ := h2
      unfold onSolver at h3
      rw [ha, hc] at h3
      rw [Option.getD_some] at h3
      generalize { d with localState := field.or d.localState } = d1 at h3 ha ⊢
      rcases hs : B.wingSolve d1 w.ctrl w1.st with ⟨x, st⟩
      rw [hs] at h3
      simp only [Prod.mk.injEq] at h3
      obtain ⟨rfl, rfl⟩ := h3
      exact ⟨⟨R, rfl, rfl⟩, by rw [← ha, ← hc]⟩
    · simp only [pure_run, Prod.mk.injEq, Except.ok.injEq] at h2
      obtain ⟨rfl, rfl⟩ := h2
      exact ⟨⟨rfl, rfl⟩, rfl⟩
  obtain ⟨hw1, hw2⟩ := hw
  refine ⟨field, w1.st, hp1, hw1, rfl, ?_, ?_, ?_, ?_⟩
  · show w2.aero = _
    rw [hw2]; exact ha
  · show w2.ctrl = _
    rw [hw2]; exact hc
  · show w2.objs ++ _ = _
    rw [hw2]; simp only [ho]
  · show w2.files = _
    rw [hw2]; exact hf

theorem aeroGiven_some {w : World B} (h : aeroGiven w = true) : ∃ d, w.aero = some d ∧ d.truthy = true := by
  unfold aeroGiven at h
  rcases hd : w.aero with _ | d
  · rw [hd] at h; simp at h
  · rw [hd] at h; exact ⟨d, rfl, by simpa using h⟩

theorem default_truthy : (defaultAeroDict : AeroDict ι).truthy = true := by simp [defaultAeroDict, AeroDict.truthy]

theorem usedAero_truthy (w : World B) : (usedAero w).truthy = true := by
  unfold usedAero
  split_ifs with h
  · obtain ⟨d, hd, ht⟩ := aeroGiven_some h
    rw [hd]; exact ht
  · exact default_truthy

/-- what a successful `solve` is made of -/
theorem muSolve_ok {ps : Option B.π} {w w' : World B} {T : Loads} (h : muSolve ps w = (.ok T, w')) :
    ∃ field st1 prop wing,
      (if B.hasProps then ∃ r, prop = some r ∧ B.propSolve (usedAero w) ps w.st = (.ok (r, field), st1)
        else prop = none ∧ field = none ∧ st1 = w.st) ∧
      (if B.hasWings then ∃ R, wing = some R ∧
          B.wingSolve { usedAero w with localState := field.or (usedAero w).localState } w.ctrl st1 = (.ok R, w'.st)
        else wing = none ∧ w'.st = st1) ∧
      T = totalOf prop wing ∧
      w'.aero = (if aeroGiven w then some { usedAero w with localState := field.or (usedAero w).localState } else w.aero) ∧
      w'.objs = w.objs ++ [T] := by
  unfold muSolve at h
  rw [get_bind] at h
  split_ifs at h with hg
  · obtain ⟨⟨wing, prop, T'⟩, w1, h1, h⟩ := bind_ok.1 h
    simp only [pure_run, Prod.mk.injEq, Except.ok.injEq] at h
    obtain ⟨rfl, rfl⟩ := h
    obtain ⟨d, hd, -⟩ := aeroGiven_some hg
    have hu : usedAero w = d := by unfold usedAero; rw [if_pos hg, hd]; rfl
    obtain ⟨field, st1, k1, k2, k3, k4, -, k6, -⟩ := solveParts_ok hd h1
    rw [hu]
    exact ⟨field, st1, prop, wing, k1, k2, k3, by rw [if_pos hg]; exact k4, k6⟩
  · obtain ⟨⟨⟨wing, prop, T'⟩, d'⟩, w1, h1, h⟩ := bind_ok.1 h
    simp only [pure_run, Prod.mk.injEq, Except.ok.injEq] at h
    obtain ⟨rfl, rfl⟩ := h
    have hu : usedAero w = defaultAeroDict := by unfold usedAero; rw [if_neg hg]; rfl
    unfold withAero at h1
    rcases hs : solveParts ps { w with aero := some defaultAeroDict } with ⟨_ | a, w2⟩
    · rw [hs] at h1; simp at h1
    · rw [hs] at h1
      simp only [Prod.mk.injEq, Except.ok.injEq] at h1
      obtain ⟨⟨rfl, -⟩, rfl⟩ := h1
      obtain ⟨field, st1, k1, k2, k3, k4, -, k6, -⟩ := solveParts_ok rfl hs
      rw [hu]
      exact ⟨field, st1, prop, wing, k1, k2, k3, by rw [if_neg hg], k6⟩

/-- **C39, the sum.** Each of the nine entries of the result of a successful `solve` is the propeller solver's entry plus the
wing solver's entry, a missing part counting as zero.  The propeller solver got the caller's `aero_state` (or the default
one); the wing solver got the same with the velocity field of the propellers, if there is one. -/
theorem C39_sum {ps : Option B.π} {w w' : World B} {T : Loads} (h : muSolve ps w = (.ok T, w')) :
    ∃ (prop wing : Option Loads) (field : Option (ι → ℝ × V3)) (st1 : B.σ),
      (B.hasProps = true → ∃ r, prop = some r.loads ∧ B.propSolve (usedAero w) ps w.st = (.ok (r, field), st1)) ∧
      (B.hasProps = false → prop = none ∧ field = none ∧ st1 = w.st) ∧
      (B.hasWings = true → ∃ R, wing = some R.total ∧
        B.wingSolve { usedAero w with localState := field.or (usedAero w).localState } w.ctrl st1 = (.ok R, w'.st)) ∧
      (B.hasWings = false → wing = none) ∧
      ∀ f ∈ [Loads.FL, Loads.FD, Loads.FS, Loads.FX, Loads.FY, Loads.FZ, Loads.MX, Loads.MY, Loads.MZ],
        f T = entry prop f + entry wing f := by
  obtain ⟨field, st1, prop, wing, k1, k2, rfl, -, -⟩ := muSolve_ok h
  refine ⟨prop.map (·.loads), wing.map (·.total), field, st1, fun hP => ?_, fun hP => ?_, fun hW => ?_, fun hW => ?_, ?_⟩
  · rw [if_pos hP] at k1
    obtain ⟨r, rfl, k⟩ := k1
    exact ⟨r, rfl, k⟩
  · rw [if_neg (by simp [hP])] at k1
    obtain ⟨rfl, k⟩ := k1
    exact ⟨rfl, k⟩
  · rw [if_pos hW] at k2
    obtain ⟨R, rfl, k⟩ := k2
    exact ⟨R, rfl, k⟩
  · rw [if_neg (by simp [hW])] at k2
    rw [k2.1]; rfl
  · have he : ∀ (o : Option Loads) (f : Loads → ℝ), f Loads.zero = 0 → f (o.getD Loads.zero) = entry o f := by
      intro o f hf
      rcases o with _ | l
      · simpa [entry] using hf
      · rfl
    intro f hf
    simp only [List.mem_cons, List.not_mem_nil, or_false] at hf
    rcases hf with rfl | rfl | rfl | rfl | rfl | rfl | rfl | rfl | rfl <;>
      (rw [← he _ _ rfl, ← he _ _ rfl]; rfl)

/-! ### Wind axes of the total -/

theorem rotateForces_ok {u F : V3} (hu : nrm u = 1) {L D S : ℝ} (h : rotateForces u F = .ok (L, D, S)) :
    WindAxesDefined u ∧ L = dot F (liftAxis u) ∧ D = dot F u ∧ S = dot F (cross (liftAxis u) u) := by
  unfold rotateForces at h
  have e1 : normalise (cross u ⟨0, 1, 0⟩) = if nrm (cross u ey) = 0 then none else some (liftAxis u) := rfl
  by_cases h1 : nrm (cross u ey) = 0
  · rw [if_pos h1] at e1
    simp [e1, bind, Except.bind] at h
  · rw [if_neg h1] at e1
    by_cases h2 : nrm (cross (liftAxis u) u) = 0
    · have e2 : normalise (cross (liftAxis u) u) = none := by unfold normalise; rw [if_pos h2]
      simp [e1, e2, bind, Except.bind] at h
    · have e2 : normalise (cross (liftAxis u) u) = some (sideAxis u) := by unfold normalise; rw [if_neg h2]; rfl
      simp only [e1, e2, bind, Except.bind, pure, Except.pure, Except.ok.injEq] at h
      have hw : WindAxesDefined u := ⟨h1, h2⟩
      have hr : rotateAero u F = (L, D, S) := h
      rw [rotateAero_eq hu hw] at hr
      simp only [Prod.mk.injEq] at hr
      exact ⟨hw, hr.1.symm, hr.2.1.symm, hr.2.2.symm⟩

theorem windComponents_mk {u F : V3} (hu : nrm u = 1) (hw : WindAxesDefined u) {l : Loads} (hF : l.F = F)
    (h1 : l.FL = dot F (liftAxis u)) (h2 : l.FD = dot F u) (h3 : l.FS = dot F (cross (liftAxis u) u)) :
    WindComponents (liftAxis u) u (cross (liftAxis u) u) l := by
  obtain ⟨g1, g2, -, g4, -⟩ := liftAxis_props hu hw
  refine ⟨by rw [hF]; exact h1, by rw [hF]; exact h2, by rw [hF]; exact h3, ?_⟩
  rw [h1, h2, h3, parseval g1 hu g2, ← hF]
  simp only [dot, Loads.F]; ring

theorem freestream_one {V a b : ℝ} (hV : 0 < V) : (freestream V a b).bind normalise = freestream 1 a b := by
  have h1 := freestream_scale V 1 a b
  rw [mul_one] at h1
  rw [h1, bind_map_normalise hV]
  rcases hf : freestream 1 a b with _ | u
  · rfl
  · have := ((C23_freestream 1 a b).2 u hf).1
    rw [abs_one] at this
    show normalise u = some u
    unfold normalise
    rw [this, if_neg one_ne_zero, unit, this]
    simp

section Full
variable {n : ℕ} {G : LLGeom (Fin n)} {wings props : Bool} {simps : List ℝ → List ℝ → ℝ} {fuel : ℕ} {Sw lat long : ℝ}
  {bad : Act (LLState (Fin n) × List (PropSlot (Fin n))) (Option Loads)}

theorem full_prop_eq (d : AeroDict (Fin n)) (ps : Option PropDict) (st : LLState (Fin n) × List (PropSlot (Fin n))) :
    (fullBackend G wings props simps fuel Sw lat long bad).propSolve d ps st =
      ((propsSolve simps fuel (if wings then some fun i => (G.S i).rcp else none) (some d) (ps.getD []) st.2).1,
        (st.1, (propsSolve simps fuel (if wings then some fun i => (G.S i).rcp else none) (some d) (ps.getD []) st.2).2)) := rfl

theorem full_wing_eq (d : AeroDict (Fin n)) (c : Option CtrlDict) (st : LLState (Fin n) × List (PropSlot (Fin n))) :
    (fullBackend G wings props simps fuel Sw lat long bad).wingSolve d c st =
      ((llSolve G st.1 "linear" (some d) c).1, ((llSolve G st.1 "linear" (some d) c).2, st.2)) := rfl

/-- the propeller part of a plane, in terms of the propeller solver -/
theorem full_prop {d : AeroDict (Fin n)} {ps : Option PropDict} {st st1 : LLState (Fin n) × List (PropSlot (Fin n))}
    {r : PropTotals} {field : Option (Fin n → ℝ × V3)}
    (h : (fullBackend G wings props simps fuel Sw lat long bad).propSolve d ps st = (.ok (r, field), st1)) :
    propsSolve simps fuel (if wings then some fun i => (G.S i).rcp else none) (some d) (ps.getD []) st.2 = (.ok (r, field), st1.2) ∧
      st1.1 = st.1 := by
  rcases hq : propsSolve simps fuel (if wings then some fun i => (G.S i).rcp else none) (some d) (ps.getD []) st.2 with ⟨x, sls⟩
  have h' : (match propsSolve simps fuel (if wings then some fun i => (G.S i).rcp else none) (some d) (ps.getD []) st.2 with
    | (r, sls) => (r, (st.1, sls))) = (.ok (r, field), st1) := h
  rw [hq] at h'
  simp only [Prod.mk.injEq] at h'
  obtain ⟨rfl, rfl⟩ := h'
  exact ⟨rfl, rfl⟩

theorem full_wing {d : AeroDict (Fin n)} {c : Option CtrlDict} {st st1 : LLState (Fin n) × List (PropSlot (Fin n))} {R : Sol (Fin n)}
    (h : (fullBackend G wings props simps fuel Sw lat long bad).wingSolve d c st = (.ok R, st1)) :
    llSolve G st.1 "linear" (some d) c = (.ok R, st1.1) ∧ st1.2 = st.2 := by
  rcases hq : llSolve G st.1 "linear" (some d) c with ⟨x, ll⟩
  have h' : (match llSolve G st.1 "linear" (some d) c with | (r, ll) => (r, (ll, st.2))) = (.ok R, st1) := h
  rw [hq] at h'
  simp only [Prod.mk.injEq] at h'
  obtain ⟨rfl, rfl⟩ := h'
  exact ⟨rfl, rfl⟩

theorem propsSolve_forces {ι : Type} {pts : Option (ι → V3)} {aero : Option (AeroDict ι)} {ps : PropDict} {sls sls' : List (PropSlot ι)}
    {tot : PropTotals} {field : Option (ι → ℝ × V3)} (h : propsSolve simps fuel pts aero ps sls = (.ok (tot, field), sls')) :
    ∃ outs, propsForces simps fuel aero ps sls = (.ok (tot, outs), sls') := by
  unfold propsSolve at h
  obtain ⟨⟨t1, outs⟩, s1, h1, h⟩ := bind_ok.1 h
  rcases pts with _ | p
  · simp only [pure_run, Prod.mk.injEq, Except.ok.injEq] at h
    obtain ⟨⟨rfl, -⟩, rfl⟩ := h
    exact ⟨outs, h1⟩
  · simp only at h
    rcases hfl : propFlow aero with e | fl
    · rw [hfl, lift_error_bind] at h; cases h
    rw [hfl, lift_ok_bind, get_bind] at h
    split_ifs at h with hv
    · simp only [pure_run, Prod.mk.injEq, Except.ok.injEq] at h
      obtain ⟨⟨rfl, -⟩, rfl⟩ := h
      exact ⟨outs, h1⟩
    · simp at h

theorem propsSolve_flow {ι : Type} {pts : ι → V3} {aero : Option (AeroDict ι)} {ps : PropDict} {sls sls' : List (PropSlot ι)}
    {tot : PropTotals} {field : Option (ι → ℝ × V3)} (h : propsSolve simps fuel (some pts) aero ps sls = (.ok (tot, field), sls')) :
    ∃ fl, propFlow aero = .ok fl := by
  unfold propsSolve at h
  obtain ⟨⟨t1, outs⟩, s1, h1, h⟩ := bind_ok.1 h
  simp only at h
  rcases hfl : propFlow aero with e | fl
  · rw [hfl, lift_error_bind] at h; cases h
  · exact ⟨fl, rfl⟩

/-- the propeller total has wind components along the freestream direction -/
theorem props_wind {pts : Option (ι → V3)} {d : AeroDict ι} {ps : PropDict} {sls sls' : List (PropSlot ι)}
    {tot : PropTotals} {field : Option (ι → ℝ × V3)} (h : propsSolve simps fuel pts (some d) ps sls = (.ok (tot, field), sls')) :
    ∃ u, freestream 1 (d.alpha.getD 0) (d.beta.getD 0) = some u ∧ nrm u = 1 ∧ WindAxesDefined u ∧
      tot.loads.FL = dot tot.loads.F (liftAxis u) ∧ tot.loads.FD = dot tot.loads.F u ∧
      tot.loads.FS = dot tot.loads.F (cross (liftAxis u) u) := by
  obtain ⟨outs, hf⟩ := propsSolve_forces h
  obtain ⟨d', u, acc, hd, hu, -, hr, -, hF, -⟩ := propsForces_ok hf
  cases hd
  have hn : nrm u = 1 := by rw [((C23_freestream 1 _ _).2 u hu).1, abs_one]
  have hF' : tot.loads.F = acc.F := hF
  obtain ⟨w1, w2, w3, w4⟩ := rotateForces_ok hn hr
  exact ⟨u, hu, hn, w1, by rw [hF', w2], by rw [hF', w3], by rw [hF', w4]⟩

/-- the wing total has wind components along the model's wind direction -/
theorem wing_wind {st st' : LLState (Fin n)} {d : AeroDict (Fin n)} {c : Option CtrlDict} {R : Sol (Fin n)} (hd : d.truthy = true)
    (h : llSolve G st "linear" (some d) c = (.ok R, st')) :
    ∃ u, st'.u = some u ∧ nrm u = 1 ∧ WindAxesDefined u ∧ R.total.FL = dot R.total.F (liftAxis u) ∧
      R.total.FD = dot R.total.F u ∧ R.total.FS = dot R.total.F (cross (liftAxis u) u) ∧
      (∀ V, d.Vmag = some V → (freestream V (d.alpha.getD 0) (d.beta.getD 0)).bind normalise = some u) := by
  obtain ⟨v, u, hv, hu, hs, -, -⟩ := llSolve_ok h
  have hu1 := llSolve_unit hd h hu
  obtain ⟨-, -, -, hp, -, hR⟩ := solveLinear_ok hs
  have hw : WindAxesDefined u := hp.2
  obtain ⟨eL, eD, eS, k1, k2, k3, -, -, -, -, k8, -, ⟨k, hk, k10⟩, -, -, k12, -⟩ := C22_wind_axes G st st' "linear" d c R hd h
  rw [hu] at k1
  cases k1
  have hL : eL = liftAxis u := by
    have h0 : unit eL = liftAxis u := by rw [k10, unit_smul_pos hk]; rfl
    rw [← h0, unit, k2]
    simp
  subst hL
  subst k8
  refine ⟨u, hu, hu1, hw, k12.1, k12.2.1, k12.2.2.1, fun V hV => ?_⟩
  rcases ha : arrOf G d with e | a
  · have := llSolve_aero G st d c hd
    rw [ha, h] at this
    cases this
  · have := (llSolve_state G st "linear" d c hd _ ha).2.1
    rw [h] at this
    rw [hu] at this
    rw [this]
    unfold arrOf at ha
    rcases hl : d.localState with _ | ls
    · rcases hr : d.rho with _ | rho
      · rw [hl, hV, hr] at ha; simp at ha
      · rw [hl, hV, hr] at ha
        simp only [Except.ok.injEq] at ha
        rw [← ha]
    · rw [hl, hV] at ha
      simp only [Except.ok.injEq] at ha
      rw [← ha]

/-- **C39, the wind axes.** For a plane with wings or propellers, lift, drag and side force of the result of `solve` are the components of
the total force along orthonormal axes: the drag axis `eD`, which is the direction of the freestream given by `alpha` and
`beta` if `V_mag` is positive, the lift axis `eL` perpendicular to it and to the y axis, and `eS = eL × eD`.
(`V_mag` may only be left out, or not be positive, if the plane has no propellers; then `eD` is the wind direction of the
wing model.) -/
theorem C39_wind (hparts : (wings || props) = true) {ps : Option PropDict} {w w' : World (fullBackend G wings props simps fuel Sw lat long bad)}
    {T : Loads} (hV : props = true → wings = true → ∀ V, (usedAero w).Vmag = some V → 0 < V)
    (h : muSolve ps w = (.ok T, w')) :
    ∃ eL eD eS : V3, nrm eL = 1 ∧ nrm eD = 1 ∧ nrm eS = 1 ∧ dot eL eD = 0 ∧ dot eL eS = 0 ∧ dot eD eS = 0 ∧
      eS = cross eL eD ∧ dot eL ⟨0, 1, 0⟩ = 0 ∧ (∃ k : ℝ, 0 < k ∧ eL = k • cross eD ⟨0, 1, 0⟩) ∧
      WindComponents eL eD eS T ∧
      (∀ V, (usedAero w).Vmag = some V → 0 < V →
        freestream 1 ((usedAero w).alpha.getD 0) ((usedAero w).beta.getD 0) = some eD) := by
  suffices hmain : ∃ u, nrm u = 1 ∧ WindAxesDefined u ∧ T.FL = dot T.F (liftAxis u) ∧ T.FD = dot T.F u ∧
      T.FS = dot T.F (cross (liftAxis u) u) ∧ (∀ V, (usedAero w).Vmag = some V → 0 < V →
        freestream 1 ((usedAero w).alpha.getD 0) ((usedAero w).beta.getD 0) = some u) by
    obtain ⟨u, hu, hw, h1, h2, h3, h4⟩ := hmain
    obtain ⟨g1, g2, g3, g4, -⟩ := liftAxis_props hu hw
    refine ⟨liftAxis u, u, cross (liftAxis u) u, g1, hu, g4, g2, dot_cross_self _ _, dot_cross_self' _ _, rfl, g3,
      ⟨1 / nrm (cross u ey), ?_, rfl⟩, windComponents_mk hu hw rfl h1 h2 h3, h4⟩
    have := lt_of_le_of_ne (nrm_nonneg (cross u ey)) (Ne.symm hw.1)
    positivity
  obtain ⟨field, st1, prop, wing, k1, k2, rfl, -, -⟩ := muSolve_ok h
  rcases props with _ | _
  · rcases wings with _ | _
    · simp at hparts
    · obtain ⟨rfl, rfl, rfl⟩ := k1
      obtain ⟨R, rfl, k⟩ := k2
      obtain ⟨k, -⟩ := full_wing k
      simp only [Option.none_or] at k
      obtain ⟨u, -, u1, u2, u3, u4, u5, u6⟩ := wing_wind (usedAero_truthy w) k
      have hT : totalOf none (some R) = R.total := by
        simp [totalOf, Loads.add, Loads.zero]
      rw [hT]
      exact ⟨u, u1, u2, u3, u4, u5, fun V hV' hp => by rw [← freestream_one hp]; exact u6 V hV'⟩
  · obtain ⟨r, rfl, k⟩ := k1
    obtain ⟨k, -⟩ := full_prop k
    obtain ⟨u, u0, u1, u2, u3, u4, u5⟩ := props_wind k
    rcases wings with _ | _
    · obtain ⟨rfl, -⟩ := k2
      have hT : totalOf (some r) (none : Option (Sol (Fin n))) = r.loads := by
        simp [totalOf, Loads.add, Loads.zero]
      rw [hT]
      exact ⟨u, u1, u2, u3, u4, u5, fun V hV' hp => u0⟩
    · obtain ⟨R, rfl, k'⟩ := k2
      obtain ⟨k', -⟩ := full_wing k'
      have hVs : ∃ V, (usedAero w).Vmag = some V := by
        obtain ⟨fl, hfl⟩ := propsSolve_flow k
        unfold propFlow at hfl
        simp only [usedAero_truthy w, if_true, u0] at hfl
        rcases hm : (usedAero w).Vmag with _ | V
        · rw [hm] at hfl; cases hfl
        · exact ⟨V, rfl⟩
      obtain ⟨V, hVV⟩ := hVs
      have hV0 := hV rfl rfl V hVV
      obtain ⟨u', -, v1, v2, v3, v4, v5, v6⟩ := wing_wind (d := { usedAero w with localState := field.or (usedAero w).localState })
        (by have := usedAero_truthy w; rcases field with _ | f
            · exact this
            · simp [AeroDict.truthy]) k'
      have he : u' = u := by
        have := v6 V hVV
        rw [freestream_one hV0, u0] at this
        exact (Option.some.inj this).symm
      subst he
      have hF : (totalOf (some r) (some R)).F = r.loads.F + R.total.F := by ext <;> rfl
      refine ⟨u', u1, u2, ?_, ?_, ?_, fun V hV' hp => u0⟩
      · rw [hF, add_dot, ← u3, ← v3]; rfl
      · rw [hF, add_dot, ← u4, ← v4]; rfl
      · rw [hF, add_dot, ← u5, ← v5]; rfl

/-! ### C40 and C41: dictionaries that are used again -/

theorem propFlow_sans {ι : Type} {d : AeroDict ι} (ht : d.truthy = true) (x : Option (ι → ℝ × V3)) (hx : d.sansField.truthy = true) :
    propFlow (some { d with localState := x }) = propFlow (some d) := by
  have h1 : ({ d with localState := x } : AeroDict ι).truthy = true := by
    rcases d with ⟨a1, a2, a3, a4, a5, a6, a7, a8, a9⟩
    simp only [AeroDict.sansField, AeroDict.truthy, Option.isSome_none, Bool.or_false] at hx ⊢
    rcases x with _ | x
    · simpa using hx
    · simp
  unfold propFlow
  simp only [ht, h1, if_true]

/-- the propeller solver ignores the `local_state` entry -/
theorem propsSolve_sans {ι : Type} {d : AeroDict ι} (ht : d.truthy = true) (x : Option (ι → ℝ × V3)) (hx : d.sansField.truthy = true)
    (pts : Option (ι → V3)) (ps : PropDict) (sls : List (PropSlot ι)) :
    propsSolve simps fuel pts (some { d with localState := x }) ps sls = propsSolve simps fuel pts (some d) ps sls := by
  have hfl := propFlow_sans ht x hx
  have hr : ∀ (M : PropM ι) s, runProp simps fuel M (some { d with localState := x }) s = runProp simps fuel M (some d) s := by
    intro M s
    unfold runProp
    rw [hfl]
  have hl : ∀ (sls : List (PropSlot ι)) acc, propsLoop simps fuel (some { d with localState := x }) ps sls acc =
      propsLoop simps fuel (some d) ps sls acc := by
    intro sls
    induction sls with
    | nil => intro acc; rfl
    | cons sl rest ih => intro acc; simp only [propsLoop, hr, ih]
  have hf : propsForces simps fuel (some { d with localState := x }) ps = propsForces simps fuel (some d) ps := by
    funext sls
    unfold propsForces
    simp only [hl]
  unfold propsSolve
  rw [hf, hfl]

theorem solveProps_run {B : Backend ι} {ps : Option B.π} {w : World B} {d : AeroDict ι} (hd : w.aero = some d) (hP : B.hasProps = true)
    {r : PropTotals} {f : ι → ℝ × V3} {st' : B.σ} (hs : B.propSolve d ps w.st = (.ok (r, some f), st')) :
    solveProps ps d w = (.ok (some r), { w with st := st', aero := some { d with localState := some f } }) := by
  have h2 : onSolver (B.propSolve d ps) w = (.ok (r, some f), { w with st := st' }) := by
    unfold onSolver; rw [hs]
  unfold solveProps
  rw [if_pos hP, bind_of_ok h2]
  have h3 : setAero (B := B) (fun d => { d with localState := some f }) { w with st := st' } =
      (.ok (), { w with st := st', aero := some { d with localState := some f } }) := by
    unfold setAero
    simp only [hd]
  simp only
  rw [bind_of_ok h3]
  rfl

theorem propsSolve_field {ι : Type} {pts : ι → V3} {aero : Option (AeroDict ι)} {ps : PropDict} {sls sls' : List (PropSlot ι)}
    {tot : PropTotals} {field : Option (ι → ℝ × V3)} (h : propsSolve simps fuel (some pts) aero ps sls = (.ok (tot, field), sls')) :
    ∃ f, field = some f := by
  unfold propsSolve at h
  obtain ⟨⟨t1, outs⟩, s1, h1, h⟩ := bind_ok.1 h
  simp only at h
  rcases hfl : propFlow aero with e | fl
  · rw [hfl, lift_error_bind] at h; cases h
  rw [hfl, lift_ok_bind, get_bind] at h
  split_ifs at h with hv
  · simp only [pure_run, Prod.mk.injEq, Except.ok.injEq] at h
    exact ⟨_, h.1.2.symm⟩
  · simp at h

/-- **C41, the part that holds (1).** For a plane with wings and propellers, a `local_state` entry left in the dictionary by an
earlier solve, of whatever model, has no effect: the same dictionary without it or with another one gives the same result and
leaves the same dictionary behind. -/
theorem C41_overwritten_partial {ps : Option PropDict} {w : World (fullBackend G true true simps fuel Sw lat long bad)} {d : AeroDict (Fin n)}
    (hd : w.aero = some d) (hx : d.sansField.truthy = true) (x : Option (Fin n → ℝ × V3)) {T : Loads}
    {w' : World (fullBackend G true true simps fuel Sw lat long bad)} (h : muSolve ps w = (.ok T, w')) :
    muSolve ps { w with aero := some { d with localState := x } } = (.ok T, w') := by
  have ht : ∀ x, ({ d with localState := x } : AeroDict (Fin n)).truthy = true := by
    intro x
    rcases d with ⟨a1, a2, a3, a4, a5, a6, a7, a8, a9⟩
    simp only [AeroDict.sansField, AeroDict.truthy, Option.isSome_none, Bool.or_false] at hx ⊢
    rcases x with _ | x
    · simpa using hx
    · simp
  have hg : aeroGiven w = true := by simpa [aeroGiven, hd] using ht d.localState
  have hg' : aeroGiven ({ w with aero := some { d with localState := x } }) = true := by simpa [aeroGiven] using ht x
  have hu : usedAero w = d := by unfold usedAero; rw [if_pos hg, hd]; rfl
  obtain ⟨field, st1, prop, wing, k1, -⟩ := muSolve_ok h
  obtain ⟨r, rfl, k⟩ := k1
  rw [hu] at k
  obtain ⟨k', -⟩ := full_prop k
  obtain ⟨f, rfl⟩ := propsSolve_field k'
  have kx : (fullBackend G true true simps fuel Sw lat long bad).propSolve { d with localState := x } ps w.st = (.ok (r, some f), st1) := by
    have hq := full_prop_eq (G := G) (wings := true) (props := true) (simps := simps) (fuel := fuel) (Sw := Sw) (lat := lat)
      (long := long) (bad := bad) { d with localState := x } ps w.st
    rw [propsSolve_sans (ht d.localState) x hx] at hq
    exact hq.trans k
  have e1 := solveProps_run hd rfl k
  have e2 := solveProps_run (w := { w with aero := some { d with localState := x } }) rfl rfl kx
  have hparts : solveParts ps { w with aero := some { d with localState := x } } = solveParts ps w := by
    unfold solveParts
    rw [bind_of_ok (show getAero id w = (.ok d, w) by unfold getAero; rw [hd]; rfl), bind_of_ok e1,
      bind_of_ok (show getAero id { w with aero := some { d with localState := x } } = (.ok { d with localState := x }, _) by
        unfold getAero; rfl), bind_of_ok e2]
  rw [← h]
  unfold muSolve
  rw [get_bind, get_bind, if_pos hg, if_pos hg', bind_def, bind_def, hparts]

/-- **C41, the part that holds (2).** A dictionary given to a plane that does not have both wings and propellers is the same
afterwards, and so gives the same result when passed on. -/
theorem C41_untouched_partial (hB : (props && wings) = false) (ps : Option PropDict)
    (w : World (fullBackend G wings props simps fuel Sw lat long bad)) : (muSolve ps w).2.aero = w.aero :=
  (C40_solve_frame_partial (B := fullBackend G wings props simps fuel Sw lat long bad) ps w).2.2.1 hB

/-- a `solve` of a plane without propellers -/
theorem muSolve_wings {ps : Option PropDict} {w : World (fullBackend G true false simps fuel Sw lat long bad)} {d : AeroDict (Fin n)}
    (hd : w.aero = some d) (hg : aeroGiven w = true) :
    (muSolve ps w).1 = (llSolve G w.st.1 "linear" (some d) w.ctrl).1.map fun R => totalOf none (some R) := by
  unfold muSolve
  rw [get_bind, if_pos hg]
  unfold solveParts
  rw [bind_def, bind_of_ok (show getAero id w = (.ok d, w) by unfold getAero; rw [hd]; rfl),
    bind_of_ok (show solveProps ps d w = (.ok none, w) from rfl)]
  have hw : (onSolver ((fullBackend G true false simps fuel Sw lat long bad).wingSolve d w.ctrl) w) =
      ((llSolve G w.st.1 "linear" (some d) w.ctrl).1, { w with st := ((llSolve G w.st.1 "linear" (some d) w.ctrl).2, w.st.2) }) := by
    rfl
  have hs : (match (llSolve G w.st.1 "linear" (some d) w.ctrl).1 with
      | .ok R => ∃ w2, solveWings w = (.ok (some R), w2)
      | .error e => ∃ w2, solveWings w = (.error e, w2)) := by
    unfold solveWings
    rw [if_pos (show (fullBackend G true false simps fuel Sw lat long bad).hasWings = true from rfl), get_bind, hd, Option.getD_some]
    rcases hq : (llSolve G w.st.1 "linear" (some d) w.ctrl).1 with e | R
    · rw [hq] at hw
      exact ⟨_, bind_of_error hw _⟩
    · rw [hq] at hw
      exact ⟨_, bind_of_ok hw _⟩
  rcases hq : (llSolve G w.st.1 "linear" (some d) w.ctrl).1 with e | R
  · rw [hq] at hs
    obtain ⟨w2, h2⟩ := hs
    rw [bind_of_error h2]
    rfl
  · rw [hq] at hs
    obtain ⟨w2, h2⟩ := hs
    rw [bind_of_ok h2]
    rfl

/-- **C41 fails.** For a plane without propellers and a dictionary with a `local_state` entry, the result does not depend on
`rho`, and on `V_mag` only through its sign. -/
theorem C41_stale {ps : Option PropDict} (w : World (fullBackend G true false simps fuel Sw lat long bad)) {d : AeroDict (Fin n)}
    (hd : w.aero = some d) {ls : Fin n → ℝ × V3} (hl : d.localState = some ls) {V V' : ℝ} (hV : d.Vmag = some V) (h0 : 0 < V) (h0' : 0 < V')
    (rho' : Option ℝ) :
    (muSolve ps { w with aero := some { d with Vmag := some V', rho := rho' } }).1 = (muSolve ps w).1 := by
  have ht : d.truthy = true := by simp [AeroDict.truthy, hl]
  have ht' : ({ d with Vmag := some V', rho := rho' } : AeroDict (Fin n)).truthy = true := by simp [AeroDict.truthy]
  have hg : aeroGiven w = true := by simp [aeroGiven, hd, ht]
  have hg' : aeroGiven { w with aero := some { d with Vmag := some V', rho := rho' } } = true := by simp [aeroGiven, ht']
  have harr : arrOf G { d with Vmag := some V', rho := rho' } = arrOf G d := by
    unfold arrOf
    simp only [hl, hV, freestream_one h0, freestream_one h0']
    rfl
  have hll : (llSolve G w.st.1 "linear" (some { d with Vmag := some V', rho := rho' }) w.ctrl).1 =
      (llSolve G w.st.1 "linear" (some d) w.ctrl).1 := by
    rw [llSolve_aero _ _ _ _ ht, llSolve_aero _ _ _ _ ht', harr]
  rw [muSolve_wings rfl hg', muSolve_wings hd hg]
  exact congrArg (fun r : Except PyErr (Sol (Fin n)) => r.map fun R => totalOf none (some R)) hll

end Full

/-! ### A concrete plane: two wing sections and a pusher propeller behind them -/

section Demo
variable (bad : Act (LLState (Fin 2) × List (PropSlot (Fin 2))) (Option Loads))

/-- the plane with its propeller -/
noncomputable abbrev pusher : Backend (Fin 2) := fullBackend exGeom true true (fun _ _ => 1) 1 1 1 1 bad
/-- the same wing without the propeller -/
noncomputable abbrev glider : Backend (Fin 2) := fullBackend exGeom true false (fun _ _ => 1) 1 1 1 1 bad

/-- the dictionary after it was used with the plane that has a propeller -/
noncomputable def usedDict : AeroDict (Fin 2) := { exAero with localState := some fun _ => (1, ⟨-10, 0, 0⟩) }

theorem used_arr {V : ℝ} (hV : 0 < V) : arrOf exGeom { usedDict with Vmag := some V } = .ok ⟨some exFlow.v, some exFlow.u, exFlow.rho⟩ := by
  unfold arrOf
  simp only [usedDict, freestream_one hV]
  rw [show ((exAero.alpha).getD 0 : ℝ) = 0 from rfl, show ((exAero.beta).getD 0 : ℝ) = 0 from rfl, freestream_zero]
  rfl

theorem used_solve {V : ℝ} (hV : 0 < V) (st : LLState (Fin 2)) :
    (llSolve exGeom st "linear" (some { usedDict with Vmag := some V }) (some exCtrl)).1 = .ok exSol := by
  rw [llSolve_explicit _ _ _ _ (by simp [AeroDict.truthy]) exCtrl_truthy, used_arr hV, ex_ctrl]
  have h : solveLinear exGeom.cg exGeom.S ⟨exFlow.v, exFlow.u, exFlow.rho⟩ exC = .ok exSol := ex_solveLinear
  simp only [kern, h]

theorem pusher_run : ∃ (M : PropM (Fin 2)) (mem : ℕ → ℕ → Option ℝ) (T : Loads) (w' : World (pusher bad)),
    mkPropM (fun _ _ => 0) demoProp 0 none none = .ok M ∧
    muSolve (B := pusher bad) (some [("J", .num 0.5)]) { st := (LLState.init _, [⟨"p", M, { mem }, none⟩]), aero := some exAero, ctrl := some exCtrl } = (.ok T, w') ∧
    w'.aero = some usedDict := by
  obtain ⟨M, hM, -, hd, -⟩ := demo_ok (ι := Fin 2) (fun _ _ => 0) 0 none none
  have hg : M.geom = demoProp := (mkPropM_ok hM).2.2.1
  have hp : M.geom.position = ⟨-1, 0, 0⟩ := by rw [hg]; rfl
  obtain ⟨mem, hr⟩ := demo_run hM 10 1 (J := 0.5) (by norm_num) (by norm_num) (fun _ => 1) _ 0 [("J", .num 0.5)]
    (fun s => set_J M 10 s (has_singleton _ _) (by norm_num) (by norm_num)) 15
  obtain ⟨o, s1, r1, -⟩ := hr (fun _ _ => 1) 0
  have l1 : localPS [("J", .num 0.5)] "p" = .ok [("J", .num 0.5)] := by
    unfold localPS
    rw [if_neg (by simp)]
    simp [dictGet]
  obtain ⟨⟨rL, rD, rS⟩, hrot⟩ := demo_rotate (0 + o.F)
  have hl : propsLoop (fun _ _ => 1) 1 (some exAero) [("J", .num 0.5)] [⟨"p", M, { mem }, none⟩] {} =
      (.ok ({ F := 0 + o.F, M := 0 + o.M, last := some (o.T, o.l) }, [o]), [⟨"p", M, s1, some o⟩]) := by
    have r1' : runProp (fun _ _ => 1) 1 M (some exAero) [("J", .num 0.5)] { mem } = (.ok o, s1) := r1
    simp only [propsLoop, l1, r1']
  have hf : ∃ tot, propsForces (fun _ _ => 1) 1 (some exAero) [("J", .num 0.5)] [⟨"p", M, { mem }, none⟩] =
      (.ok (tot, [o]), [⟨"p", M, s1, some o⟩]) := by
    unfold propsForces
    have a0 : (exAero.alpha).getD 0 = 0 := rfl
    have b0 : (exAero.beta).getD 0 = 0 := rfl
    simp only [hl, a0, b0, freestream_zero, hrot]
    exact ⟨_, rfl⟩
  obtain ⟨tot, hf⟩ := hf
  have hfl : propFlow (some exAero) = .ok ⟨1, 10, ⟨-1, 0, 0⟩⟩ := demo_flow 10 1
  have hvel : ∀ i, pointVel ⟨1, 10, ⟨-1, 0, 0⟩⟩ ((exGeom.S i).rcp) [(M, o)] = .ok ⟨-10, 0, 0⟩ := by
    intro i
    have h0 : propVel M 10 o.n o.c ((exGeom.S i).rcp) = .ok 0 := by
      apply C68_outside
      left
      rw [demo_fwd hg, hp]
      fin_cases i <;> norm_num [exGeom, exSec, dot]
    simp only [pointVel, h0, bind, Except.bind, pure, Except.pure, Except.ok.injEq]
    ext <;> simp
  have hps : propsSolve (fun _ _ => 1) 1 (some fun i => (exGeom.S i).rcp) (some exAero) [("J", .num 0.5)] [⟨"p", M, { mem }, none⟩] =
      (.ok (tot, some fun _ => (1, ⟨-10, 0, 0⟩)), [⟨"p", M, s1, some o⟩]) := by
    unfold propsSolve
    rw [bind_of_ok hf]
    simp only [hfl, lift_ok_bind, get_bind]
    have hz : (List.map PropSlot.model [(⟨"p", M, s1, some o⟩ : PropSlot (Fin 2))]).zip [o] = [(M, o)] := rfl
    simp only [hz, hvel, Except.toBool, Except.toOption, Option.getD_some, implies_true, if_true]
    rfl
  have hB : (pusher bad).propSolve exAero (some [("J", .num 0.5)]) (LLState.init (Fin 2), [⟨"p", M, { mem }, none⟩]) =
      (.ok (tot, some fun _ => (1, ⟨-10, 0, 0⟩)), (LLState.init (Fin 2), [⟨"p", M, s1, some o⟩])) := by
    show (match propsSolve (fun _ _ => 1) 1 (some fun i => (exGeom.S i).rcp) (some exAero) [("J", .num 0.5)] [⟨"p", M, { mem }, none⟩] with
      | (r, sls) => (r, (LLState.init (Fin 2), sls))) = _
    rw [hps]
  let w0 : World (pusher bad) := { st := (LLState.init _, [⟨"p", M, { mem }, none⟩]), aero := some exAero, ctrl := some exCtrl }
  have e1 : solveProps (B := pusher bad) (some [("J", .num 0.5)]) exAero w0 =
      (.ok (some tot), { w0 with st := (LLState.init (Fin 2), [⟨"p", M, s1, some o⟩]), aero := some usedDict }) :=
    solveProps_run (B := pusher bad) (w := w0) rfl rfl hB
  have e2 : ∃ w', solveWings (B := pusher bad) { w0 with st := (LLState.init (Fin 2), [⟨"p", M, s1, some o⟩]), aero := some usedDict } =
      (.ok (some exSol), w') := by
    unfold solveWings
    rw [if_pos (show (pusher bad).hasWings = true from rfl), get_bind]
    have hu : (llSolve exGeom (LLState.init (Fin 2)) "linear" (some usedDict) (some exCtrl)).1 = .ok exSol := used_solve (V := 10) (by norm_num) _
    have hw : (onSolver (B := pusher bad) ((pusher bad).wingSolve usedDict (some exCtrl))
          { w0 with st := (LLState.init (Fin 2), [⟨"p", M, s1, some o⟩]), aero := some usedDict }) =
        ((llSolve exGeom (LLState.init (Fin 2)) "linear" (some usedDict) (some exCtrl)).1,
          { w0 with st := ((llSolve exGeom (LLState.init (Fin 2)) "linear" (some usedDict) (some exCtrl)).2, [⟨"p", M, s1, some o⟩]), aero := some usedDict }) := rfl
    rw [hu] at hw
    exact ⟨_, bind_of_ok hw _⟩
  obtain ⟨w2, e2⟩ := e2
  have hrun : ∃ T w', muSolve (B := pusher bad) (some [("J", .num 0.5)]) w0 = (.ok T, w') := by
    unfold muSolve
    rw [get_bind, if_pos (show aeroGiven w0 = true from exAero_truthy)]
    unfold solveParts
    rw [bind_def, bind_of_ok (show getAero id w0 = (.ok exAero, w0) from rfl), bind_of_ok e1, bind_of_ok e2]
    exact ⟨_, _, rfl⟩
  obtain ⟨T, w', hrun⟩ := hrun
  refine ⟨M, mem, T, w', hM, hrun, ?_⟩
  have := C40_field_stored (B := pusher bad) (w := w0) rfl exAero_truthy rfl hB
  rw [hrun] at this
  exact this

/-- **C40 fails.** A solve of the plane with a pusher propeller changes the caller's `aero_state`: it has a `local_state` entry
afterwards that it did not have before. -/
theorem C40_refuted : ∃ (w w' : World (pusher bad)) (ps : Option PropDict) (T : Loads) (d d' : AeroDict (Fin 2)),
    muSolve (B := pusher bad) ps w = (.ok T, w') ∧ w.aero = some d ∧ w'.aero = some d' ∧ d.localState = none ∧
      d'.localState.isSome = true := by
  obtain ⟨M, mem, T, w', -, h, ha⟩ := pusher_run bad
  exact ⟨_, w', _, T, exAero, usedDict, h, rfl, ha, rfl, rfl⟩

theorem exSol_FX : exSol.total.FX < 0 := by
  have h1 : exSol.total.FX = (∑ i, secForce exGeom.S exFlow (fun _ => exGamma) (vInd exGeom.S exFlow (fun _ => exGamma)) i).x +
      (∑ i, secDrag exGeom.S exFlow exC (vInd exGeom.S exFlow (fun _ => exGamma)) i).x := rfl
  have hg := exGamma_pos
  have hpi := Real.pi_pos
  have hf : ∀ i, (secForce exGeom.S exFlow (fun _ => exGamma) (vInd exGeom.S exFlow (fun _ => exGamma)) i).x < 0 := by
    intro i
    simp only [secForce, ex_vInd]
    have : 0 < exGamma * (exGamma * (2 / (3 * Real.pi))) := by positivity
    fin_cases i <;> simp [exFlow, exGeom, exSec, dl] <;> linarith
  have hd : ∀ i, (secDrag exGeom.S exFlow exC (vInd exGeom.S exFlow (fun _ => exGamma)) i).x ≤ 0 := by
    intro i
    have hc : 0 ≤ secCd exGeom.S exC (alphas exGeom.S (vInd exGeom.S exFlow (fun _ => exGamma))) i := by
      unfold secCd
      generalize secCl exGeom.S (alphas exGeom.S (vInd exGeom.S exFlow (fun _ => exGamma))) i = cl
      have : ∀ i, (exGeom.S i).left = exAf ∧ (exGeom.S i).right = exAf ∧ (exGeom.S i).sp = 1 / 2 := by
        intro i; fin_cases i <;> exact ⟨rfl, rfl, rfl⟩
      simp only [(this i).1, (this i).2.1, (this i).2.2, lerp, exAf, exC]
      have := mul_self_nonneg cl
      norm_num
      nlinarith
    have ha : (exGeom.S i).area = 1 := by fin_cases i <;> rfl
    unfold secDrag
    simp only [smul_x, ex_vInd, ha, mul_one]
    have hn := nrm_nonneg (⟨-10, 0, exGamma * (2 / (3 * Real.pi))⟩ : V3)
    have hr : exFlow.rho i = 1 := rfl
    have hv : 0 ≤ nrm (exFlow.v i) := nrm_nonneg _
    rw [hr]
    have h3 : 0 ≤ 1 / nrm (⟨-10, 0, exGamma * (2 / (3 * Real.pi))⟩ : V3) := div_nonneg zero_le_one hn
    have h4 : 0 ≤ 0.5 * 1 * nrm (exFlow.v i) * nrm (exFlow.v i) *
        secCd exGeom.S exC (alphas exGeom.S (vInd exGeom.S exFlow (fun _ => exGamma))) i := by positivity
    have h5 := mul_nonneg h4 h3
    nlinarith
  rw [h1, Fin.sum_univ_two, Fin.sum_univ_two]
  simp only [add_x]
  linarith [hf 0, hf 1, hd 0, hd 1]

/-- **C41 fails.** A dictionary is used for a solve of the plane with the propeller, at 10 per second.  Then its `V_mag` entry is set
to 20 and it is passed to a plane without propellers.  The result is not the one its entries describe: a newly made dictionary
with the same entries gives four times the force. -/
theorem C41_refuted : ∃ (w w' : World (pusher bad)) (ps : Option PropDict) (T : Loads) (d' : AeroDict (Fin 2)) (T1 T2 : Loads),
    muSolve (B := pusher bad) ps w = (.ok T, w') ∧ w.aero = some { Vmag := some 10, rho := some 1 } ∧ w'.aero = some d' ∧
    (∀ sls, (muSolve (B := glider bad) none { st := (LLState.init _, sls), aero := some { d' with Vmag := some 20 }, ctrl := some exCtrl }).1 = .ok T1) ∧
    (∀ sls, (muSolve (B := glider bad) none
      { st := (LLState.init _, sls), aero := some { Vmag := some 20, rho := some 1 }, ctrl := some exCtrl }).1 = .ok T2) ∧
    T2.FX = 4 * T1.FX ∧ T1.FX ≠ 0 := by
  obtain ⟨M, mem, T, w', -, h, ha⟩ := pusher_run bad
  have hsc := C24_speed_scaling exGeom (LLState.init _) exAero (some exCtrl) 2 (by norm_num) exAero_truthy
  rw [ex_solve] at hsc
  have hR : ∃ R', (llSolve exGeom (LLState.init _) "linear" (some (exAero.scaleSpeed 2)) (some exCtrl)).1 = .ok R' ∧
      LoadsScaled (2 ^ 2) (2 ^ 2) exSol R' := by
    revert hsc
    cases (llSolve exGeom (LLState.init _) "linear" (some (exAero.scaleSpeed 2)) (some exCtrl)).1 with
    | error e => intro h; exact h.elim
    | ok R' => intro h; exact ⟨R', rfl, h.1⟩
  obtain ⟨R', hR', hs⟩ := hR
  have hd2 : exAero.scaleSpeed 2 = { Vmag := some 20, rho := some 1 } := by
    simp [AeroDict.scaleSpeed, exAero]
    norm_num
  rw [hd2] at hR'
  refine ⟨_, w', _, T, usedDict, totalOf none (some exSol), totalOf none (some R'), h, rfl, ha, fun sls => ?_, fun sls => ?_, ?_, ?_⟩
  · refine (muSolve_wings (ps := none) (w := { st := (LLState.init _, sls), aero := some { usedDict with Vmag := some 20 }, ctrl := some exCtrl })
      rfl (by simp [aeroGiven, AeroDict.truthy])).trans ?_
    exact congrArg (fun r : Except PyErr (Sol (Fin 2)) => r.map fun R => totalOf none (some R)) (used_solve (V := 20) (by norm_num) (LLState.init _))
  · refine (muSolve_wings (ps := none) (w := { st := (LLState.init _, sls), aero := some { Vmag := some 20, rho := some 1 }, ctrl := some exCtrl })
      rfl (by simp [aeroGiven, AeroDict.truthy])).trans ?_
    exact congrArg (fun r : Except PyErr (Sol (Fin 2)) => r.map fun R => totalOf none (some R)) (hR')
  · have h4 : R'.total.FX = 2 ^ 2 * exSol.total.FX := by rw [hs.total]; rfl
    simp only [totalOf, Option.map_none, Option.getD_none, Option.map_some, Option.getD_some, Loads.add, Loads.zero, h4]
    norm_num
  · have := exSol_FX
    simp only [totalOf, Option.map_none, Option.getD_none, Option.map_some, Option.getD_some, Loads.add, Loads.zero]
    intro h0
    linarith

/-- C39, C41: the hypotheses are met by the plane with the pusher propeller -/
example : ∃ (w w' : World (pusher bad)) (ps : Option PropDict) (T : Loads), muSolve (B := pusher bad) ps w = (.ok T, w') ∧
    (true || true) = true ∧ (∀ V, (usedAero w).Vmag = some V → 0 < V) ∧ ∃ d, w.aero = some d ∧ d.sansField.truthy = true := by
  obtain ⟨M, mem, T, w', -, h, ha⟩ := pusher_run bad
  refine ⟨_, w', _, T, h, rfl, ?_, exAero, rfl, by simp [AeroDict.sansField, AeroDict.truthy, exAero]⟩
  intro V hV
  have : usedAero (B := pusher bad) { st := (LLState.init _, [⟨"p", M, { mem }, none⟩]), aero := some exAero, ctrl := some exCtrl } = exAero := by
    unfold usedAero
    exact if_pos exAero_truthy
  rw [this] at hV
  cases hV
  norm_num

end Demo

/-! ### C21: results that were returned -/

/-- a `solve` call: the caller's two dictionaries at the time of the call and the propeller state -/
structure MUCall {ι : Type} (B : Backend ι) where
  aero : Option (AeroDict ι)
  ctrl : Option CtrlDict
  ps : Option B.π

/-- a sequence of `solve` calls, successful or not, with arbitrary arguments -/
noncomputable def muHistory (w : World B) : List (MUCall B) → World B
  | [] => w
  | c :: t => muHistory (muSolve c.ps { w with aero := c.aero, ctrl := c.ctrl }).2 t

theorem solveParts_objs (ps : Option B.π) (w : World B) : ∃ l, (solveParts ps w).2.objs = w.objs ++ l := by
  have h1 : ∀ d, Keeps World.objs (solveProps ps d : Act (World B) _) := by
    intro d
    unfold solveProps
    refine Keeps.ite ?_ (Keeps.pure _)
    refine Keeps.bind (keeps_onSolver fun _ _ => rfl) fun r => ?_
    rcases r with ⟨r, _ | f⟩
    · exact Keeps.bind (Keeps.ret _) fun _ => Keeps.pure _
    · exact Keeps.bind (keeps_setAero fun _ _ _ => rfl) fun _ => Keeps.pure _
  have h2 : Keeps World.objs (solveWings : Act (World B) _) := by
    unfold solveWings
    refine Keeps.ite ?_ (Keeps.pure _)
    exact Keeps.bind Keeps.get fun w => Keeps.bind (keeps_onSolver fun _ _ => rfl) fun _ => Keeps.pure _
  unfold solveParts
  rcases hd : w.aero with _ | d
  · rw [bind_of_error (show getAero id w = (.error .attribute, w) by unfold getAero; rw [hd])]
    exact ⟨[], by simp⟩
  · rw [bind_of_ok (show getAero id w = (.ok d, w) by unfold getAero; rw [hd]; rfl)]
    have k1 := h1 d w
    rcases hq : solveProps ps d w with ⟨e | r, w1⟩
    · rw [bind_of_error hq]
      rw [hq] at k1
      exact ⟨[], by simpa using k1⟩
    · rw [bind_of_ok hq]
      rw [hq] at k1
      have k2 := h2 w1
      rcases hq2 : solveWings w1 with ⟨e | r2, w2⟩
      · rw [bind_of_error hq2]
        rw [hq2] at k2
        exact ⟨[], by simpa using k2.trans k1⟩
      · rw [bind_of_ok hq2]
        rw [hq2] at k2
        exact ⟨[totalOf r r2], by simp only [change_bind, pure_run]; rw [show w2.objs = w.objs from k2.trans k1]⟩

theorem muSolve_objs (ps : Option B.π) (w : World B) : ∃ l, (muSolve ps w).2.objs = w.objs ++ l := by
  unfold muSolve
  rw [get_bind]
  split_ifs with hg
  · obtain ⟨l, hl⟩ := solveParts_objs ps w
    refine ⟨l, ?_⟩
    rw [← hl, bind_def]
    rcases solveParts ps w with ⟨_ | ⟨a, b, c⟩, w'⟩ <;> rfl
  · obtain ⟨l, hl⟩ := solveParts_objs ps { w with aero := some defaultAeroDict }
    refine ⟨l, ?_⟩
    rw [← show (solveParts ps { w with aero := some defaultAeroDict }).2.objs = w.objs ++ l from hl, bind_def]
    unfold withAero
    rcases solveParts ps { w with aero := some defaultAeroDict } with ⟨_ | ⟨a, b, c⟩, w'⟩ <;> rfl

/-- **C21, the part that holds.** The result of a successful `MachUp.solve` is a new object, and after every sequence of later
`solve` calls (successful or not, with arbitrary arguments) it, like all objects returned before, reads as it did.
(For `LLModel.solve` this is false: `C21_llmodel_refuted`.) -/
theorem C21_machup_partial {ps : Option B.π} {w w' : World B} {T : Loads} (h : muSolve ps w = (.ok T, w')) (later : List (MUCall B)) :
    w'.objs[w.objs.length]? = some T ∧ w'.objs.length = w.objs.length + 1 ∧
      ∀ i < w'.objs.length, (muHistory w' later).objs[i]? = w'.objs[i]? := by
  obtain ⟨_, _, _, _, -, -, -, -, ho⟩ := muSolve_ok h
  have hist : ∀ (later : List (MUCall B)) (w : World B), ∃ l, (muHistory w later).objs = w.objs ++ l := by
    intro later
    induction later with
    | nil => intro w; exact ⟨[], by simp [muHistory]⟩
    | cons c t ih =>
      intro w
      obtain ⟨l1, h1⟩ := muSolve_objs c.ps { w with aero := c.aero, ctrl := c.ctrl }
      obtain ⟨l2, h2⟩ := ih (muSolve c.ps { w with aero := c.aero, ctrl := c.ctrl }).2
      refine ⟨l1 ++ l2, ?_⟩
      rw [muHistory, h2, h1]
      simp
  refine ⟨by rw [ho]; simp, by rw [ho]; simp, fun i hi => ?_⟩
  obtain ⟨l, hl⟩ := hist later w'
  rw [hl, List.getElem?_append_left hi]

end Verif
