import Verif.Lemmas.FollowMir
import Verif.Thm.Decoupled

/-!
# All methods for the mirror image of an aircraft (C142)
-/

namespace Verif
open V3 Act

/-! ### What is found by searching -/

/-- **C142.** Build an aircraft twice, the second time with mirrored calls, and construct `MachUp` objects for both.  Make any sequence of
calls of the methods that report no derivatives on the first one, and the same calls with mirrored flow, mirrored aileron and rudder and
the same propeller states on the second one (airspeed and density given).  The last call raises the same exception on both, or its
answers are mirror images: the loads are mirrored, the stall is found at the same angle of attack, lift and airspeed, `target_lift` and `pitch_trim` find
the same angles of attack and elevator deflections, and the aerodynamic centre is the same.  The dictionaries of the two
callers are left as mirror images too. -/
theorem C142_calls {table : String → ℝ → ℝ} {mem : String → ℕ → ℕ → Option ℝ} {simps : List ℝ → List ℝ → ℝ} {fuel : ℕ}
    (nm : String) (pos : Option V3) (ops : List PlaneOp) (units : Option (Option String)) (cg : V3) (p p' : Plane)
    (hp : p = { built nm pos ops with units, cg }) (hp' : p' = { built nm (pos.map mir) (ops.map PlaneOp.mirror) with units, cg := mir cg }) :
    ((∃ o, openMachUp table mem p = .ok o) ↔ ∃ o', openMachUp table mem p' = .ok o') ∧
    ∀ o o' : Analyser, openMachUp table mem p = .ok o → openMachUp table mem p' = .ok o' →
    ∃ σ : Fin (sectionsOf o.wing) ≃ Fin (sectionsOf o'.wing),
      (∀ i, ((geomOf p'.cg o'.wing).S (σ i)).rcp = mir ((geomOf p.cg o.wing).S i).rcp) ∧
      ∀ (bad bad' : _) (hist : List (Request (Fin (sectionsOf o.wing)))) (q : Request (Fin (sectionsOf o.wing))),
        (∀ r ∈ hist ++ [q], r.Conditions ∧ r.what.NoDerivatives ∧ ∀ L e f, r.what = .targetLift L e f → MirBad σ bad bad') →
        let call (r : Request (Fin (sectionsOf o.wing))) : AnyCall (o.backend p simps fuel bad) := ⟨r.what, r.aero, r.ctrl, r.ps⟩
        let call' (r : Request (Fin (sectionsOf o'.wing))) : AnyCall (o'.backend p' simps fuel bad') := ⟨r.what, r.aero, r.ctrl, r.ps⟩
        let r := (call q).run p.cg (afterCalls p.cg (o.fresh p simps fuel bad none none) (hist.map call))
        let r' := (call' (q.mirror σ)).run p'.cg (afterCalls p'.cg (o'.fresh p' simps fuel bad' none none) ((hist.map (Request.mirror σ)).map call'))
        Outcome Answer.Mirrored r.1 r'.1 ∧ r'.2.aero = r.2.aero.map (fun d => d.mirror.reindex σ) ∧ r'.2.ctrl = r.2.ctrl.map CtrlDict.mirror := by
  have h : CraftMir p p' := by
    have := built_craft nm pos ops
    rw [hp, hp']
    exact { this with cg := rfl }
  have hu : p'.units = p.units := by rw [hp, hp']
  refine ⟨⟨fun ⟨o, ho⟩ => open_of h hu ho, fun ⟨o, ho⟩ => open_back h hu ho⟩, fun o o' ho ho' => ?_⟩
  obtain ⟨σ, g1, hmax, hO, hslots⟩ := objMir_of h hu ho ho'
  obtain ⟨hS, -, hl⟩ := refs_mirror h (slots_cases ho).1 (slots_cases ho').1
  refine ⟨σ, g1, fun bad bad' hist q hq => ?_⟩
  intro call call'
  have key := mir_history (simps := simps) (fuel := fuel) (bad := bad) (bad' := bad') hO hmax hS hl hslots hist q hq
  rw [List.map_map]
  refine ⟨key.1.mono fun a a' h1 h2 h => ?_, key.2⟩
  clear h1 h2
  cases a <;> cases a' <;> first | exact h.elim | exact h | skip
  · rename_i r r'
    replace h : Option.Rel (Follow.AnswerAlike (fun _ _ => True) 1) r r' := h
    show Option.Rel _ r r'
    cases h with
    | none => exact .none
    | @some x y h =>
      refine .some ?_
      have res : ∀ {r r' : StallResult}, Follow.StallAlike (fun _ _ => True) 1 r r' → r.SameStall r' := by
        rintro r r' ⟨h1, h2, -⟩
        exact ⟨h1, h2.trans (one_mul _)⟩
      cases x <;> cases y <;> first | exact h.elim | exact res h | exact ⟨res h.1, h.2⟩ | trivial
  · obtain ⟨h1, ⟨h2, h3⟩, h4⟩ := h
    rw [hO.cg] at h1 h4
    simp only [mir_x, mir_z] at h1 h4
    refine V3.ext ?_ (h3.trans h2.symm) ?_ <;> linarith

/-! ### Derivatives -/

section
variable {ι : Type} {B : Backend ι}

/-- `solve` with these dictionaries returns these loads, whatever has been done before -/
def Returns (ps : Option B.π) (d : AeroDict ι) (c : CtrlDict) (r : Loads) : Prop :=
  ∀ w : World B, w.aero = some d → w.ctrl = some c → ∃ w', muSolve ps w = (.ok r, w')

variable {ps : Option B.π} {c : CtrlDict} {d : AeroDict ι} {w : World B}

theorem Returns.eq (hB : (B.hasProps && B.hasWings) = false) {r r' : Loads} (h : Returns (B := B) ps d c r)
    (h' : SolvedAt (B := B) ps d (some c) r') : r' = r := by
  obtain ⟨w, w', d', hd, hs, hc, hm⟩ := h'
  have e := hs.2 hB
  subst e
  obtain ⟨w'', e⟩ := h w hd hc
  rw [hm] at e
  cases e
  rfl

theorem central_aero_at (hB : (B.hasProps && B.hasWings) = false) {f : ℝ → AeroDict ι → AeroDict ι} (hf : KeySetter f) {x0 δ : ℝ}
    (hd : w.aero = some d) (hc : w.ctrl = some c) {a b : Loads} (h1 : Returns (B := B) ps (f (x0 - δ) d) c b) (h2 : Returns (B := B) ps (f (x0 + δ) d) c a) :
    ∃ r w', central ps (fun x => setAero (f x)) x0 δ w = (.ok r, w') ∧ w'.aero = some (f (x0 + δ) d) ∧ w'.ctrl = some c := by
  obtain ⟨w1, e1⟩ := h1 { w with aero := some (f (x0 - δ) d) } rfl hc
  obtain ⟨d1, hd1, hs1⟩ := muSolve_aero rfl e1
  have := hs1.2 hB
  subst this
  have hc1 := (muSolve_ctrl e1).trans hc
  obtain ⟨w2, e2⟩ := h2 { w1 with aero := some (f (x0 + δ) (f (x0 - δ) d)) } (by rw [hf.over]) hc1
  have e : central ps (fun x => setAero (f x)) x0 δ w = (.ok (a, b), w2) := by
    unfold central
    rw [bind_of_ok (setAero_some hd), bind_of_ok e1, bind_of_ok (setAero_some hd1), bind_of_ok e2]
    rfl
  obtain ⟨⟨d', hd', hs⟩, hc', _⟩ := central_aero hf hd e
  refine ⟨_, w2, e, ?_, hc'.trans hc⟩
  rw [hd', hs.2 hB]

theorem central_ctrl_at (hB : (B.hasProps && B.hasWings) = false) {f : ℝ → CtrlDict → CtrlDict} (hov : ∀ x y d, f y (f x d) = f y d) {x0 δ : ℝ}
    (hd : w.aero = some d) (hc : w.ctrl = some c) {a b : Loads} (h1 : Returns (B := B) ps d (f (x0 - δ) c) b) (h2 : Returns (B := B) ps d (f (x0 + δ) c) a) :
    ∃ r w', central ps (fun x => setCtrl (f x)) x0 δ w = (.ok r, w') ∧ w'.aero = some d ∧ w'.ctrl = some (f (x0 + δ) c) := by
  obtain ⟨w1, e1⟩ := h1 { w with ctrl := some (f (x0 - δ) c) } hd rfl
  obtain ⟨d1, hd1, hs1⟩ := muSolve_aero (w := { w with ctrl := some (f (x0 - δ) c) }) hd e1
  have := hs1.2 hB
  subst this
  have hc1 := muSolve_ctrl e1
  obtain ⟨w2, e2⟩ := h2 { w1 with ctrl := some (f (x0 + δ) (f (x0 - δ) c)) } hd1 (by rw [hov])
  have e : central ps (fun x => setCtrl (f x)) x0 δ w = (.ok (a, b), w2) := by
    unfold central
    rw [bind_of_ok (setCtrl_some hc), bind_of_ok e1, bind_of_ok (setCtrl_some hc1), bind_of_ok e2]
    rfl
  obtain ⟨d2, hd2, hs2⟩ := muSolve_aero (w := { w1 with ctrl := some (f (x0 + δ) (f (x0 - δ) c)) }) hd1 e2
  have := hs2.2 hB
  subst this
  refine ⟨_, w2, e, hd2, ?_⟩
  rw [muSolve_ctrl e2, hov]

theorem stab_at (hW : B.hasWings = true) (hP : B.hasProps = false) (hd : w.aero = some d) (hc : w.ctrl = some c) (ht : d.truthy = true) {a b a' b' : Loads}
    (h1 : Returns (B := B) ps { d with alpha := some (d.alpha.getD 0 - 0.5) } c a) (h2 : Returns (B := B) ps { d with alpha := some (d.alpha.getD 0 + 0.5) } c b)
    (h3 : Returns (B := B) ps { d with alpha := some (d.alpha.getD 0), beta := some (d.beta.getD 0 - 0.5) } c a')
    (h4 : Returns (B := B) ps { d with alpha := some (d.alpha.getD 0), beta := some (d.beta.getD 0 + 0.5) } c b') :
    ∃ D w', stabilityDerivatives ps w = (.ok D, w') := by
  have hB : (B.hasProps && B.hasWings) = false := by rw [hP]; rfl
  obtain ⟨r, w1, e1, a1, c1⟩ := central_aero_at hB keySetter_alpha hd hc h1 h2
  obtain ⟨r', w2, e2, a2, _⟩ := central_aero_at hB keySetter_beta (x0 := d.beta.getD 0) (δ := 0.5)
    (w := { w1 with aero := some { d with alpha := some (d.alpha.getD 0) } }) rfl c1 h3 h4
  unfold stabilityDerivatives
  rw [get_bind, if_pos (by simp [aeroGiven, hd, ht])]
  unfold stabBody
  rw [bind_of_ok (dynPressure_returns hW hd)]
  simp only
  rw [bind_of_ok (getAero_some hd), bind_of_ok (show central ps setAlpha _ _ _ = _ from e1)]
  rw [bind_of_ok (show setAlpha _ _ = _ from setAero_some a1), bind_of_ok (getAero_some rfl), bind_of_ok (show central ps setBeta _ _ _ = _ from e2)]
  rw [bind_of_ok (show setBeta _ _ = _ from setAero_some a2)]
  exact ⟨_, _, rfl⟩

theorem damp_at (hW : B.hasWings = true) (hP : B.hasProps = false) (hl : B.lat ≠ 0) (hl' : B.long ≠ 0) (hd : w.aero = some d) (hc : w.ctrl = some c)
    (ht : d.truthy = true) {a b a' b' a'' b'' : Loads} {dp dq : ℝ} (hp : dp = 0.005 * 2 * d.Vmag.getD 10 / B.lat)
    (hq : dq = 0.005 * 2 * d.Vmag.getD 10 / B.long)
    (h1 : Returns (B := B) ps { d with roll := some (d.roll.getD 0 - dp) } c a) (h2 : Returns (B := B) ps { d with roll := some (d.roll.getD 0 + dp) } c b)
    (h3 : Returns (B := B) ps { d with roll := some (d.roll.getD 0), pitch := some (d.pitch.getD 0 - dq) } c a')
    (h4 : Returns (B := B) ps { d with roll := some (d.roll.getD 0), pitch := some (d.pitch.getD 0 + dq) } c b')
    (h5 : Returns (B := B) ps { d with roll := some (d.roll.getD 0), pitch := some (d.pitch.getD 0), yaw := some (d.yaw.getD 0 - dp) } c a'')
    (h6 : Returns (B := B) ps { d with roll := some (d.roll.getD 0), pitch := some (d.pitch.getD 0), yaw := some (d.yaw.getD 0 + dp) } c b'') :
    ∃ D w', dampingDerivatives ps w = (.ok D, w') := by
  subst hp hq
  have hB : (B.hasProps && B.hasWings) = false := by rw [hP]; rfl
  obtain ⟨r, w1, e1, a1, c1⟩ := central_aero_at hB keySetter_roll hd hc h1 h2
  obtain ⟨r', w2, e2, a2, c2⟩ := central_aero_at hB keySetter_pitch
    (w := { w1 with aero := some { d with roll := some (d.roll.getD 0) } }) rfl c1 h3 h4
  obtain ⟨r'', w3, e3, a3, _⟩ := central_aero_at hB keySetter_yaw
    (w := { w2 with aero := some { d with roll := some (d.roll.getD 0), pitch := some (d.pitch.getD 0) } }) rfl c2 h5 h6
  unfold dampingDerivatives
  rw [get_bind, if_pos (by simp [aeroGiven, hd, ht])]
  unfold dampBody
  rw [bind_of_ok (getAero_some hd), bind_of_ok (dynPressure_returns hW hd), if_neg (by simp [hl, hl'])]
  simp only
  rw [bind_of_ok (getAero_some hd), bind_of_ok (show central ps setRoll _ _ _ = _ from e1)]
  rw [bind_of_ok (show setRoll _ _ = _ from setAero_some a1), bind_of_ok (getAero_some rfl), bind_of_ok (show central ps setPitch _ _ _ = _ from e2)]
  rw [bind_of_ok (show setPitch _ _ = _ from setAero_some a2), bind_of_ok (getAero_some rfl), bind_of_ok (show central ps setYaw _ _ _ = _ from e3)]
  rw [bind_of_ok (show setYaw _ _ = _ from setAero_some a3)]
  exact ⟨_, _, rfl⟩

theorem cont_at (hW : B.hasWings = true) (hP : B.hasProps = false) (hd : w.aero = some d) (hc : w.ctrl = some c) (ht : c.truthy = true)
    {x1 y1 x2 y2 x3 y3 x4 y4 : Loads}
    (h1 : Returns (B := B) ps d { c with aileron := some (c.aileron.getD 0 - 0.25) } x1)
    (h1' : Returns (B := B) ps d { c with aileron := some (c.aileron.getD 0 + 0.25) } y1)
    (h2 : Returns (B := B) ps d { c with aileron := some (c.aileron.getD 0), elevator := some (c.elevator.getD 0 - 0.25) } x2)
    (h2' : Returns (B := B) ps d { c with aileron := some (c.aileron.getD 0), elevator := some (c.elevator.getD 0 + 0.25) } y2)
    (h3 : Returns (B := B) ps d { c with aileron := some (c.aileron.getD 0), elevator := some (c.elevator.getD 0), rudder := some (c.rudder.getD 0 - 0.25) } x3)
    (h3' : Returns (B := B) ps d { c with aileron := some (c.aileron.getD 0), elevator := some (c.elevator.getD 0), rudder := some (c.rudder.getD 0 + 0.25) } y3)
    (h4 : Returns (B := B) ps d { c with aileron := some (c.aileron.getD 0), elevator := some (c.elevator.getD 0), rudder := some (c.rudder.getD 0), flap := some (c.flap.getD 0 - 0.25) } x4)
    (h4' : Returns (B := B) ps d { c with aileron := some (c.aileron.getD 0), elevator := some (c.elevator.getD 0), rudder := some (c.rudder.getD 0), flap := some (c.flap.getD 0 + 0.25) } y4) :
    ∃ D w', controlDerivatives ps w = (.ok D, w') := by
  have hB : (B.hasProps && B.hasWings) = false := by rw [hP]; rfl
  obtain ⟨r1, w1, e1, a1, c1⟩ := central_ctrl_at hB (f := fun x d => { d with aileron := some x }) (fun _ _ _ => rfl) hd hc h1 h1'
  obtain ⟨r2, w2, e2, a2, c2⟩ := central_ctrl_at hB (f := fun x d => { d with elevator := some x }) (fun _ _ _ => rfl)
    (w := { w1 with ctrl := some { c with aileron := some (c.aileron.getD 0) } }) a1 rfl h2 h2'
  obtain ⟨r3, w3, e3, a3, c3⟩ := central_ctrl_at hB (f := fun x d => { d with rudder := some x }) (fun _ _ _ => rfl)
    (w := { w2 with ctrl := some { c with aileron := some (c.aileron.getD 0), elevator := some (c.elevator.getD 0) } }) a2 rfl h3 h3'
  obtain ⟨r4, w4, e4, a4, c4⟩ := central_ctrl_at hB (f := fun x d => { d with flap := some x }) (fun _ _ _ => rfl)
    (w := { w3 with ctrl := some { c with aileron := some (c.aileron.getD 0), elevator := some (c.elevator.getD 0),
                                          rudder := some (c.rudder.getD 0) } }) a3 rfl h4 h4'
  unfold controlDerivatives
  rw [get_bind, if_pos (by simp [ctrlGiven, hc, ht])]
  unfold contBody
  rw [bind_of_ok (dynPressure_returns hW hd)]
  simp only
  rw [bind_of_ok (getCtrl_some hc), bind_of_ok (show central ps setAileron _ _ _ = _ from e1)]
  rw [bind_of_ok (show setAileron _ _ = _ from setCtrl_some c1), bind_of_ok (getCtrl_some rfl), bind_of_ok (show central ps setElevator _ _ _ = _ from e2)]
  rw [bind_of_ok (show setElevator _ _ = _ from setCtrl_some c2), bind_of_ok (getCtrl_some rfl), bind_of_ok (show central ps setRudder _ _ _ = _ from e3)]
  rw [bind_of_ok (show setRudder _ _ = _ from setCtrl_some c3), bind_of_ok (getCtrl_some rfl), bind_of_ok (show central ps setFlap _ _ _ = _ from e4)]
  rw [bind_of_ok (show setFlap _ _ = _ from setCtrl_some c4)]
  exact ⟨_, _, rfl⟩

end

/-- central differences of mirrored loads -/
theorem reported_long {ι ι' : Type} {B : Backend ι} {B' : Backend ι'} (hS : B'.Sw = B.Sw) (hlat : B'.lat = B.lat) (hlong : B'.long = B.long)
    {D D' : Option Deriv} {a b a' b' : Loads} {h q q' : ℝ} (hD : ReportedDerivative B D a b h q) (hD' : ReportedDerivative B' D' a' b' h q')
    (hq : q' = q) (ha : a' = a.mirror) (hb : b' = b.mirror) : D' = D.map Deriv.mirrorLong := by
  subst ha hb hq
  have hn : D' = none ↔ D = none := by rw [hD.2, hD'.2, hS, hlat, hlong]
  rcases D with _ | D
  · rw [hn.2 rfl]; rfl
  · rcases D' with _ | D'
    · have := hn.1 rfl; cases this
    · obtain ⟨h1, h2, h3, h4, h5, h6, h7, h8, h9⟩ := hD.1 _ rfl
      obtain ⟨g1, g2, g3, g4, g5, g6, g7, g8, g9⟩ := hD'.1 _ rfl
      rw [hS] at g1 g2 g3 g4 g5 g6 g7 g8 g9
      rw [hlat] at g7 g9
      rw [hlong] at g8
      simp only [Loads.mirror] at g1 g2 g3 g4 g5 g6 g7 g8 g9
      simp only [Option.map_some, Option.some.injEq]
      ext <;> simp only [Deriv.mirrorLong, h1, h2, h3, h4, h5, h6, h7, h8, h9, g1, g2, g3, g4, g5, g6, g7, g8, g9] <;> ring

/-- the same if the two steps are exchanged -/
theorem reported_lat {ι ι' : Type} {B : Backend ι} {B' : Backend ι'} (hS : B'.Sw = B.Sw) (hlat : B'.lat = B.lat) (hlong : B'.long = B.long)
    {D D' : Option Deriv} {a b a' b' : Loads} {h q q' : ℝ} (hD : ReportedDerivative B D a b h q) (hD' : ReportedDerivative B' D' a' b' h q')
    (hq : q' = q) (ha : a' = b.mirror) (hb : b' = a.mirror) : D' = D.map Deriv.mirrorLat := by
  subst ha hb hq
  have hn : D' = none ↔ D = none := by rw [hD.2, hD'.2, hS, hlat, hlong]
  rcases D with _ | D
  · rw [hn.2 rfl]; rfl
  · rcases D' with _ | D'
    · have := hn.1 rfl; cases this
    · obtain ⟨h1, h2, h3, h4, h5, h6, h7, h8, h9⟩ := hD.1 _ rfl
      obtain ⟨g1, g2, g3, g4, g5, g6, g7, g8, g9⟩ := hD'.1 _ rfl
      rw [hS] at g1 g2 g3 g4 g5 g6 g7 g8 g9
      rw [hlat] at g7 g9
      rw [hlong] at g8
      simp only [Loads.mirror] at g1 g2 g3 g4 g5 g6 g7 g8 g9
      simp only [Option.map_some, Option.some.injEq]
      ext <;> simp only [Deriv.mirrorLat, h1, h2, h3, h4, h5, h6, h7, h8, h9, g1, g2, g3, g4, g5, g6, g7, g8, g9] <;> ring

theorem pair_of_fst {α β : Type*} {x : α × β} {a : α} (h : x.1 = a) : x = (a, x.2) := by
  subst h; rfl

theorem total_mirror {ι ι' : Type} {σ : ι ≃ ι'} {x : Except PyErr (Sol ι)} {x' : Except PyErr (Sol ι')} {r : Loads}
    (k : Except.ok r = x.map fun R => totalOf none (some R)) (m : Outcome (fun S S' => S'.total = S.total.mirror ∧ SameSections σ S S') x x') :
    (x'.map fun R => totalOf none (some R)) = .ok r.mirror := by
  rcases x with e | R <;> rcases x' with e' | R'
  · cases k
  · cases k
  · exact m.elim
  · cases k
    have e : R'.total = R.total.mirror := m.1
    simp [Except.map, totalOf, Loads.add, Loads.zero, e, Loads.mirror]

section
variable {o o' : Analyser} {p p' : Plane} {σ : Fin (sectionsOf o.wing) ≃ Fin (sectionsOf o'.wing)}
  {simps : List ℝ → List ℝ → ℝ} {fuel : ℕ} {bad : _} {bad' : _} {ps : Option PropDict}

/-- what `solve` reported for an aircraft without propellers, it reports for the mirror image, mirrored -/
theorem returns_mirror (hO : ObjMir o o' p p' σ) (hw : p.wings ≠ []) (hnp : p.props = []) {d : AeroDict (Fin (sectionsOf o.wing))}
    {d' : AeroDict (Fin (sectionsOf o'.wing))} {c c' : CtrlDict} {r : Loads}
    (h : SolvedAt (B := o.backend p simps fuel bad) ps d (some c) r) (ht : d.truthy = true) (hc : c.truthy = true)
    (hd' : d' = d.mirror.reindex σ) (hc' : c' = c.mirror) : Returns (B := o'.backend p' simps fuel bad') ps d' c' r.mirror := by
  subst hd' hc'
  have hP : (o.backend p simps fuel bad).hasProps = false := by show (!p.props.isEmpty) = false; rw [hnp]; rfl
  have hW : (o.backend p simps fuel bad).hasWings = true := by show (!p.wings.isEmpty) = true; simp [hw]
  have hP' : (o'.backend p' simps fuel bad').hasProps = false := by show (!p'.props.isEmpty) = false; rw [hO.props, hnp]; rfl
  have hW' : (o'.backend p' simps fuel bad').hasWings = true := by show (!p'.wings.isEmpty) = true; rw [hO.wings]; simp [hw]
  have hB : ((o.backend p simps fuel bad).hasProps && (o.backend p simps fuel bad).hasWings) = false := by rw [hP]; rfl
  obtain ⟨w, w', d1, hd, hsame, hcc, hm⟩ := h
  have := hsame.2 hB
  subst this
  intro v hv hvc
  have ht' : (d1.mirror.reindex σ).truthy = true := by rw [truthy_reindex, truthy_mirror, ht]
  have hct' : c.mirror.truthy = true := by simpa [CtrlDict.truthy, CtrlDict.mirror] using hc
  have k := muSolve_wingsOnly (B := o.backend p simps fuel bad) (ps := ps) hP hW hd (by unfold aeroGiven; rw [hd]; exact ht)
  have k' := muSolve_wingsOnly (B := o'.backend p' simps fuel bad') (ps := ps) hP' hW' hv (by unfold aeroGiven; rw [hv]; exact ht')
  rw [hm, hcc] at k
  rw [hvc] at k'
  have k2 := backend_wingSolve (o := o) (p := p) (simps := simps) (fuel := fuel) (bad := bad) d1 (some c) w.st
  have k2' := backend_wingSolve (o := o') (p := p') (simps := simps) (fuel := fuel) (bad := bad') (d1.mirror.reindex σ) (some c.mirror) v.st
  by_cases hi : o.wing.isSome = true
  · rw [if_pos hi] at k2
    rw [if_pos (hO.wing.trans hi)] at k2'
    have k3 := congrArg Prod.fst k2
    have k3' := congrArg Prod.fst k2'
    rw [llSolve_given (geomOf p.cg o.wing) (LLState.init _) _ d1 (some c) ht hc] at k3
    rw [llSolve_given (geomOf p'.cg o'.wing) (LLState.init _) _ (d1.mirror.reindex σ) (some c.mirror) ht' hct'] at k3'
    have k4 : ((o.backend p simps fuel bad).wingSolve d1 (some c) w.st).1 =
      (llSolve (geomOf p.cg o.wing) (LLState.init _) "linear" (some d1) (some c)).1 := k3
    have k4' : ((o'.backend p' simps fuel bad').wingSolve (d1.mirror.reindex σ) (some c.mirror) v.st).1 =
      (llSolve (geomOf p'.cg o'.wing) (LLState.init _) "linear" (some (d1.mirror.reindex σ)) (some c.mirror)).1 := k3'
    rw [k4] at k
    rw [k4'] at k'
    have m := (hO.solves d1 (some c) (LLState.init _) (LLState.init _) ht hi ⟨fun _ => rfl, fun _ => rfl⟩).1
    rw [Option.map_some] at m
    clear k2 k2' k3 k3' k4 k4'
    revert k k' m
    generalize (llSolve (geomOf p.cg o.wing) (LLState.init _) "linear" (some d1) (some c)).1 = x
    generalize (llSolve (geomOf p'.cg o'.wing) (LLState.init _) "linear" (some (d1.mirror.reindex σ)) (some c.mirror)).1 = x'
    intro k k' m
    have e := total_mirror k m
    rw [e] at k'
    exact ⟨_, pair_of_fst k'⟩
  · rw [if_neg hi] at k2
    have k3 : ((o.backend p simps fuel bad).wingSolve d1 (some c) w.st).1 = .error .attribute := congrArg Prod.fst k2
    rw [k3] at k
    cases k

theorem stab_mirror (hO : ObjMir o o' p p' σ) (hw : p.wings ≠ []) (hnp : p.props = [])
    (hS : (o'.wing.map (·.Sw)).getD 0 = (o.wing.map (·.Sw)).getD 0) (hlat : (o'.wing.map (·.lat)).getD 0 = (o.wing.map (·.lat)).getD 0)
    (hlong : (o'.wing.map (·.long)).getD 0 = (o.wing.map (·.long)).getD 0)
    {w v : World (o.backend p simps fuel bad)} {w' : World (o'.backend p' simps fuel bad')} {d : AeroDict (Fin (sectionsOf o.wing))} {c : CtrlDict}
    {D : StabDeriv} (hd : w.aero = some d) (ht : d.truthy = true) (hc : w.ctrl = some c) (hct : c.truthy = true)
    (hd' : w'.aero = some (d.mirror.reindex σ)) (hc' : w'.ctrl = some c.mirror)
    (h : stabilityDerivatives (B := o.backend p simps fuel bad) ps w = (.ok D, v)) :
    ∃ v', stabilityDerivatives (B := o'.backend p' simps fuel bad') ps w' = (.ok D.mirror, v') := by
  have hP' : (o'.backend p' simps fuel bad').hasProps = false := by show (!p'.props.isEmpty) = false; rw [hO.props, hnp]; rfl
  have hW' : (o'.backend p' simps fuel bad').hasWings = true := by show (!p'.wings.isEmpty) = true; rw [hO.wings]; simp [hw]
  have hB' : ((o'.backend p' simps fuel bad').hasProps && (o'.backend p' simps fuel bad').hasWings) = false := by rw [hP']; rfl
  have ht' : (d.mirror.reindex σ).truthy = true := by rw [truthy_reindex, truthy_mirror, ht]
  obtain ⟨-, -, -, aF, aB, bF, bB, s1, s2, s3, s4, r1, r2⟩ := C42_stability_derivatives hd ht h
  rw [hc] at s1 s2 s3 s4
  have t : ∀ a b : _, ({ d with alpha := some a, beta := b } : AeroDict (Fin (sectionsOf o.wing))).truthy = true := fun a b => by simp [AeroDict.truthy]
  have eb : (d.mirror.reindex σ).beta.getD 0 = -(d.beta.getD 0) := by simp [AeroDict.mirror, AeroDict.reindex, getD_map_neg]
  have k1 := returns_mirror (bad' := bad') (d' := { d.mirror.reindex σ with alpha := some ((d.mirror.reindex σ).alpha.getD 0 + 0.5) }) hO hw hnp s1 (t _ _) hct rfl rfl
  have k2 := returns_mirror (bad' := bad') (d' := { d.mirror.reindex σ with alpha := some ((d.mirror.reindex σ).alpha.getD 0 - 0.5) }) hO hw hnp s2 (t _ _) hct rfl rfl
  have k3 := returns_mirror (bad' := bad') (d' := { d.mirror.reindex σ with alpha := some ((d.mirror.reindex σ).alpha.getD 0), beta := some ((d.mirror.reindex σ).beta.getD 0 - 0.5) }) hO hw hnp s3 (t _ _) hct (by
    rw [eb]; simp only [AeroDict.mirror, AeroDict.reindex, Option.map_some, neg_add']) rfl
  have k4 := returns_mirror (bad' := bad') (d' := { d.mirror.reindex σ with alpha := some ((d.mirror.reindex σ).alpha.getD 0), beta := some ((d.mirror.reindex σ).beta.getD 0 + 0.5) }) hO hw hnp s4 (t _ _) hct (by
    rw [eb]; simp only [AeroDict.mirror, AeroDict.reindex, Option.map_some, neg_sub]; rw [neg_add_eq_sub]) rfl
  obtain ⟨D', v', e⟩ := stab_at hW' hP' hd' hc' ht' k2 k1 k3 k4
  obtain ⟨-, -, -, aF', aB', bF', bB', s1', s2', s3', s4', r1', r2'⟩ := C42_stability_derivatives hd' ht' e
  rw [hc'] at s1' s2' s3' s4'
  refine ⟨v', e.trans (congrArg (fun D => (Except.ok D, v')) ?_)⟩
  obtain ⟨x, y⟩ := D'
  have e1 : x = D.a.map Deriv.mirrorLong := reported_long hS hlat hlong r1 r1' rfl (k1.eq hB' s1') (k2.eq hB' s2')
  have e2 : y = D.b.map Deriv.mirrorLat := reported_lat hS hlat hlong r2 r2' rfl (k4.eq hB' s3') (k3.eq hB' s4')
  rw [e1, e2]
  rfl

theorem damp_mirror (hO : ObjMir o o' p p' σ) (hw : p.wings ≠ []) (hnp : p.props = [])
    (hS : (o'.wing.map (·.Sw)).getD 0 = (o.wing.map (·.Sw)).getD 0) (hlat : (o'.wing.map (·.lat)).getD 0 = (o.wing.map (·.lat)).getD 0)
    (hlong : (o'.wing.map (·.long)).getD 0 = (o.wing.map (·.long)).getD 0)
    {w v : World (o.backend p simps fuel bad)} {w' : World (o'.backend p' simps fuel bad')} {d : AeroDict (Fin (sectionsOf o.wing))} {c : CtrlDict}
    {D : DampDeriv} (hd : w.aero = some d) (ht : d.truthy = true) (hc : w.ctrl = some c) (hct : c.truthy = true)
    (hd' : w'.aero = some (d.mirror.reindex σ)) (hc' : w'.ctrl = some c.mirror)
    (h : dampingDerivatives (B := o.backend p simps fuel bad) ps w = (.ok D, v)) :
    ∃ v', dampingDerivatives (B := o'.backend p' simps fuel bad') ps w' = (.ok D.mirror, v') := by
  have hP' : (o'.backend p' simps fuel bad').hasProps = false := by show (!p'.props.isEmpty) = false; rw [hO.props, hnp]; rfl
  have hW : (o.backend p simps fuel bad).hasWings = true := by show (!p.wings.isEmpty) = true; simp [hw]
  have hW' : (o'.backend p' simps fuel bad').hasWings = true := by show (!p'.wings.isEmpty) = true; rw [hO.wings]; simp [hw]
  have hB' : ((o'.backend p' simps fuel bad').hasProps && (o'.backend p' simps fuel bad').hasWings) = false := by rw [hP']; rfl
  have ht' : (d.mirror.reindex σ).truthy = true := by rw [truthy_reindex, truthy_mirror, ht]
  have elat : (o'.backend p' simps fuel bad').lat = (o.backend p simps fuel bad).lat := hlat
  have elong : (o'.backend p' simps fuel bad').long = (o.backend p simps fuel bad).long := hlong
  have hl : ¬ ((o.backend p simps fuel bad).lat = 0 ∨ (o.backend p simps fuel bad).long = 0) := by
    intro h0
    unfold dampingDerivatives at h
    rw [get_bind, if_pos (by simp [aeroGiven, hd, ht])] at h
    unfold dampBody at h
    rw [bind_of_ok (getAero_some hd), bind_of_ok (dynPressure_returns hW hd), if_pos h0] at h
    cases h
  rw [not_or] at hl
  obtain ⟨-, -, -, pF, pB, qF, qB, rF, rB, s1, s2, s3, s4, s5, s6, r1, r2, r3⟩ := C43_damping_partial hd ht h
  rw [hc] at s1 s2 s3 s4 s5 s6
  have t : ∀ a b x : _, ({ d with roll := some a, pitch := b, yaw := x } : AeroDict (Fin (sectionsOf o.wing))).truthy = true := fun a b x => by simp [AeroDict.truthy]
  have er : (d.mirror.reindex σ).roll.getD 0 = -(d.roll.getD 0) := by simp [AeroDict.mirror, AeroDict.reindex, getD_map_neg]
  have ey : (d.mirror.reindex σ).yaw.getD 0 = -(d.yaw.getD 0) := by simp [AeroDict.mirror, AeroDict.reindex, getD_map_neg]
  have edp : 0.005 * (2 * (d.mirror.reindex σ).Vmag.getD 10 / (o'.backend p' simps fuel bad').lat) = 0.005 * (2 * d.Vmag.getD 10 / (o.backend p simps fuel bad).lat) := by
    rw [elat]; rfl
  have edq : 0.005 * (2 * (d.mirror.reindex σ).Vmag.getD 10 / (o'.backend p' simps fuel bad').long) = 0.005 * (2 * d.Vmag.getD 10 / (o.backend p simps fuel bad).long) := by
    rw [elong]; rfl
  set dp := 0.005 * (2 * d.Vmag.getD 10 / (o.backend p simps fuel bad).lat) with hdp
  set dq := 0.005 * (2 * d.Vmag.getD 10 / (o.backend p simps fuel bad).long) with hdq
  have k1 := returns_mirror (bad' := bad') (d' := { d.mirror.reindex σ with roll := some ((d.mirror.reindex σ).roll.getD 0 - dp) }) hO hw hnp s1 (t _ _ _) hct (by
    rw [er]; simp only [AeroDict.mirror, AeroDict.reindex, Option.map_some, neg_add']) rfl
  have k2 := returns_mirror (bad' := bad') (d' := { d.mirror.reindex σ with roll := some ((d.mirror.reindex σ).roll.getD 0 + dp) }) hO hw hnp s2 (t _ _ _) hct (by
    rw [er]; simp only [AeroDict.mirror, AeroDict.reindex, Option.map_some, neg_sub']; rw [sub_neg_eq_add]) rfl
  have k3 := returns_mirror (bad' := bad') (d' := { d.mirror.reindex σ with roll := some ((d.mirror.reindex σ).roll.getD 0), pitch := some ((d.mirror.reindex σ).pitch.getD 0 + dq) }) hO hw hnp s3 (t _ _ _) hct (by
    rw [er]; rfl) rfl
  have k4 := returns_mirror (bad' := bad') (d' := { d.mirror.reindex σ with roll := some ((d.mirror.reindex σ).roll.getD 0), pitch := some ((d.mirror.reindex σ).pitch.getD 0 - dq) }) hO hw hnp s4 (t _ _ _) hct (by
    rw [er]; rfl) rfl
  have k5 := returns_mirror (bad' := bad') (d' := { d.mirror.reindex σ with roll := some ((d.mirror.reindex σ).roll.getD 0), pitch := some ((d.mirror.reindex σ).pitch.getD 0), yaw := some ((d.mirror.reindex σ).yaw.getD 0 - dp) }) hO hw hnp s5 (t _ _ _) hct (by
    rw [er, ey]; simp only [AeroDict.mirror, AeroDict.reindex, Option.map_some, neg_add']) rfl
  have k6 := returns_mirror (bad' := bad') (d' := { d.mirror.reindex σ with roll := some ((d.mirror.reindex σ).roll.getD 0), pitch := some ((d.mirror.reindex σ).pitch.getD 0), yaw := some ((d.mirror.reindex σ).yaw.getD 0 + dp) }) hO hw hnp s6 (t _ _ _) hct (by
    rw [er, ey]; simp only [AeroDict.mirror, AeroDict.reindex, Option.map_some, neg_sub']; rw [sub_neg_eq_add]) rfl
  obtain ⟨D', v', e⟩ := damp_at hW' hP' (by rw [elat]; exact hl.1) (by rw [elong]; exact hl.2) hd' hc' ht' (dp := dp) (dq := dq) (by rw [← edp]; ring) (by rw [← edq]; ring)
    k1 k2 k4 k3 k5 k6
  obtain ⟨-, -, -, pF', pB', qF', qB', rF', rB', s1', s2', s3', s4', s5', s6', r1', r2', r3'⟩ := C43_damping_partial hd' ht' e
  rw [hc'] at s1' s2' s3' s4' s5' s6'
  rw [edp] at s1' s2' s5' s6'
  rw [edq] at s3' s4'
  refine ⟨v', e.trans (congrArg (fun D => (Except.ok D, v')) ?_)⟩
  obtain ⟨x, y, z⟩ := D'
  have e1 : x = D.p.map Deriv.mirrorLat := reported_lat hS hlat hlong r1 r1' rfl (k2.eq hB' s1') (k1.eq hB' s2')
  have e2 : y = D.q.map Deriv.mirrorLong := reported_long hS hlat hlong r2 r2' rfl (k3.eq hB' s3') (k4.eq hB' s4')
  have e3 : z = D.r.map Deriv.mirrorLat := reported_lat hS hlat hlong r3 r3' rfl (k6.eq hB' s5') (k5.eq hB' s6')
  rw [e1, e2, e3]
  rfl

theorem cont_mirror (hO : ObjMir o o' p p' σ) (hw : p.wings ≠ []) (hnp : p.props = [])
    (hS : (o'.wing.map (·.Sw)).getD 0 = (o.wing.map (·.Sw)).getD 0) (hlat : (o'.wing.map (·.lat)).getD 0 = (o.wing.map (·.lat)).getD 0)
    (hlong : (o'.wing.map (·.long)).getD 0 = (o.wing.map (·.long)).getD 0)
    {w v : World (o.backend p simps fuel bad)} {w' : World (o'.backend p' simps fuel bad')} {d : AeroDict (Fin (sectionsOf o.wing))} {c : CtrlDict}
    {D : ContDeriv} (hd : w.aero = some d) (ht : d.truthy = true) (hc : w.ctrl = some c) (hct : c.truthy = true)
    (hd' : w'.aero = some (d.mirror.reindex σ)) (hc' : w'.ctrl = some c.mirror)
    (h : controlDerivatives (B := o.backend p simps fuel bad) ps w = (.ok D, v)) :
    ∃ v', controlDerivatives (B := o'.backend p' simps fuel bad') ps w' = (.ok D.mirror, v') := by
  have hP' : (o'.backend p' simps fuel bad').hasProps = false := by show (!p'.props.isEmpty) = false; rw [hO.props, hnp]; rfl
  have hW' : (o'.backend p' simps fuel bad').hasWings = true := by show (!p'.wings.isEmpty) = true; rw [hO.wings]; simp [hw]
  have hB' : ((o'.backend p' simps fuel bad').hasProps && (o'.backend p' simps fuel bad').hasWings) = false := by rw [hP']; rfl
  have hct' : c.mirror.truthy = true := by simpa [CtrlDict.truthy, CtrlDict.mirror] using hct
  obtain ⟨-, -, -, aF, aB, eF, eB, rF, rB, fF, fB, s1, s2, s3, s4, s5, s6, s7, s8, r1, r2, r3, r4⟩ := C44_control_derivatives hd hc hct h
  have ea : c.mirror.aileron.getD 0 = -(c.aileron.getD 0) := by simp [CtrlDict.mirror, getD_map_neg]
  have er : c.mirror.rudder.getD 0 = -(c.rudder.getD 0) := by simp [CtrlDict.mirror, getD_map_neg]
  have M : ∀ {x y : CtrlDict} {r : Loads}, SolvedAt (B := o.backend p simps fuel bad) ps d (some x) r → x.truthy = true → y = x.mirror →
      Returns (B := o'.backend p' simps fuel bad') ps (d.mirror.reindex σ) y r.mirror := fun hs hx hy => returns_mirror hO hw hnp hs ht hx rfl hy
  have k1 := M (y := { c.mirror with aileron := some (c.mirror.aileron.getD 0 - 0.25) }) s1 (by simp [CtrlDict.truthy]) (by
    rw [ea]; simp only [CtrlDict.mirror, Option.map_some, neg_add'])
  have k2 := M (y := { c.mirror with aileron := some (c.mirror.aileron.getD 0 + 0.25) }) s2 (by simp [CtrlDict.truthy]) (by
    rw [ea]; simp only [CtrlDict.mirror, Option.map_some, neg_sub', sub_neg_eq_add])
  have k3 := M (y := { c.mirror with aileron := some (c.mirror.aileron.getD 0), elevator := some (c.mirror.elevator.getD 0 + 0.25) }) s3 (by simp [CtrlDict.truthy]) (by
    rw [ea]; rfl)
  have k4 := M (y := { c.mirror with aileron := some (c.mirror.aileron.getD 0), elevator := some (c.mirror.elevator.getD 0 - 0.25) }) s4 (by simp [CtrlDict.truthy]) (by
    rw [ea]; rfl)
  have k5 := M (y := { c.mirror with aileron := some (c.mirror.aileron.getD 0), elevator := some (c.mirror.elevator.getD 0), rudder := some (c.mirror.rudder.getD 0 - 0.25) }) s5
    (by simp [CtrlDict.truthy]) (by rw [ea, er]; simp only [CtrlDict.mirror, Option.map_some, neg_add'])
  have k6 := M (y := { c.mirror with aileron := some (c.mirror.aileron.getD 0), elevator := some (c.mirror.elevator.getD 0), rudder := some (c.mirror.rudder.getD 0 + 0.25) }) s6
    (by simp [CtrlDict.truthy]) (by rw [ea, er]; simp only [CtrlDict.mirror, Option.map_some, neg_sub', sub_neg_eq_add])
  have k7 := M (y := { c.mirror with aileron := some (c.mirror.aileron.getD 0), elevator := some (c.mirror.elevator.getD 0), rudder := some (c.mirror.rudder.getD 0), flap := some (c.mirror.flap.getD 0 + 0.25) }) s7 (by simp [CtrlDict.truthy]) (by rw [ea, er]; rfl)
  have k8 := M (y := { c.mirror with aileron := some (c.mirror.aileron.getD 0), elevator := some (c.mirror.elevator.getD 0), rudder := some (c.mirror.rudder.getD 0), flap := some (c.mirror.flap.getD 0 - 0.25) }) s8 (by simp [CtrlDict.truthy]) (by rw [ea, er]; rfl)
  obtain ⟨D', v', e⟩ := cont_at hW' hP' hd' hc' hct' k1 k2 k4 k3 k5 k6 k8 k7
  obtain ⟨-, -, -, aF', aB', eF', eB', rF', rB', fF', fB', s1', s2', s3', s4', s5', s6', s7', s8', r1', r2', r3', r4'⟩ := C44_control_derivatives hd' hc' hct' e
  refine ⟨v', e.trans (congrArg (fun D => (Except.ok D, v')) ?_)⟩
  obtain ⟨x, y, z, t⟩ := D'
  have e1 : x = D.da.map Deriv.mirrorLat := reported_lat hS hlat hlong r1 r1' rfl (k2.eq hB' s1') (k1.eq hB' s2')
  have e2 : y = D.de.map Deriv.mirrorLong := reported_long hS hlat hlong r2 r2' rfl (k3.eq hB' s3') (k4.eq hB' s4')
  have e3 : z = D.dr.map Deriv.mirrorLat := reported_lat hS hlat hlong r3 r3' rfl (k6.eq hB' s5') (k5.eq hB' s6')
  have e4 : t = D.df.map Deriv.mirrorLong := reported_long hS hlat hlong r4 r4' rfl (k7.eq hB' s7') (k8.eq hB' s8')
  rw [e1, e2, e3, e4]
  rfl

theorem margin_mirror (D : StabDeriv) : staticMargin D.mirror = staticMargin D := by
  obtain ⟨a, b⟩ := D
  cases a <;> rfl

theorem all_mirror (hO : ObjMir o o' p p' σ) (hw : p.wings ≠ []) (hnp : p.props = [])
    (hS : (o'.wing.map (·.Sw)).getD 0 = (o.wing.map (·.Sw)).getD 0) (hlat : (o'.wing.map (·.lat)).getD 0 = (o.wing.map (·.lat)).getD 0)
    (hlong : (o'.wing.map (·.long)).getD 0 = (o.wing.map (·.long)).getD 0)
    {w v : World (o.backend p simps fuel bad)} {w' : World (o'.backend p' simps fuel bad')} {d : AeroDict (Fin (sectionsOf o.wing))} {c : CtrlDict}
    {D : Option AllDerivs} {f : Option String} (hd : w.aero = some d) (ht : d.truthy = true) (hc : w.ctrl = some c) (hct : c.truthy = true)
    (hd' : w'.aero = some (d.mirror.reindex σ)) (hc' : w'.ctrl = some c.mirror)
    (h : derivatives (B := o.backend p simps fuel bad) ps f w = (.ok D, v)) :
    ∃ v', derivatives (B := o'.backend p' simps fuel bad') ps f w' = (.ok (D.map AllDerivs.mirror), v') := by
  have hP : (o.backend p simps fuel bad).hasProps = false := by show (!p.props.isEmpty) = false; rw [hnp]; rfl
  have hP' : (o'.backend p' simps fuel bad').hasProps = false := by show (!p'.props.isEmpty) = false; rw [hO.props, hnp]; rfl
  have hW : (o.backend p simps fuel bad).hasWings = true := by show (!p.wings.isEmpty) = true; simp [hw]
  have hW' : (o'.backend p' simps fuel bad').hasWings = true := by show (!p'.wings.isEmpty) = true; rw [hO.wings]; simp [hw]
  have hB : ((o.backend p simps fuel bad).hasProps && (o.backend p simps fuel bad).hasWings) = false := by rw [hP]; rfl
  have hB' : ((o'.backend p' simps fuel bad').hasProps && (o'.backend p' simps fuel bad').hasWings) = false := by rw [hP']; rfl
  have ht' : (d.mirror.reindex σ).truthy = true := by rw [truthy_reindex, truthy_mirror, ht]
  have hct' : c.mirror.truthy = true := by simpa [CtrlDict.truthy, CtrlDict.mirror] using hct
  unfold derivatives at h ⊢
  rw [if_pos hW] at h
  rw [if_pos hW']
  obtain ⟨S, w1, h1, h⟩ := bind_ok.1 h
  obtain ⟨C, w2, h2, h⟩ := bind_ok.1 h
  obtain ⟨E, w3, h3, h⟩ := bind_ok.1 h
  obtain ⟨x, hx⟩ : ∃ v, writeFile f (.derivs S (staticMargin S) C E) w3 = (.ok (), v) := by cases f <;> exact ⟨_, rfl⟩
  rw [bind_of_ok hx] at h
  obtain ⟨w1', h1'⟩ := stab_mirror (bad' := bad') hO hw hnp hS hlat hlong hd ht hc hct hd' hc' h1
  obtain ⟨⟨d1, a1, m1⟩, c1, -, -⟩ := C42_stability_derivatives hd ht h1
  obtain ⟨⟨d1', a1', m1'⟩, c1', -, -⟩ := C42_stability_derivatives hd' ht' h1'
  cases m1.2 hB
  cases m1'.2 hB'
  rw [hc] at c1
  rw [hc'] at c1'
  have e1 : w1'.aero = some (({ d with alpha := some (d.alpha.getD 0), beta := some (d.beta.getD 0) } : AeroDict _).mirror.reindex σ) := by
    rw [a1']
    congr 1
    simp [AeroDict.mirror, AeroDict.reindex, getD_map_neg]
  obtain ⟨w2', h2'⟩ := cont_mirror (bad' := bad') hO hw hnp hS hlat hlong a1 (by simp [AeroDict.truthy]) c1 hct e1 c1' h2
  obtain ⟨⟨d2, a2, m2⟩, c2, -, -⟩ := C44_control_derivatives a1 c1 hct h2
  obtain ⟨⟨d2', a2', m2'⟩, c2', -, -⟩ := C44_control_derivatives e1 c1' hct' h2'
  cases m2.2 hB
  cases m2'.2 hB'
  have e2 : w2'.ctrl = some (({ c with aileron := some (c.aileron.getD 0), elevator := some (c.elevator.getD 0), rudder := some (c.rudder.getD 0), flap := some (c.flap.getD 0) } : CtrlDict).mirror) := by
    rw [c2']
    congr 1
    simp [CtrlDict.mirror, getD_map_neg]
  obtain ⟨w3', h3'⟩ := damp_mirror (bad' := bad') hO hw hnp hS hlat hlong a2 (by simp [AeroDict.truthy]) c2 (by simp [CtrlDict.truthy]) a2' e2 h3
  rw [bind_of_ok h1', bind_of_ok h2', bind_of_ok h3']
  obtain ⟨y, hy⟩ : ∃ v, writeFile f (.derivs S.mirror (staticMargin S.mirror) C.mirror E.mirror) w3' = (.ok (), v) := by cases f <;> exact ⟨_, rfl⟩
  rw [bind_of_ok hy]
  cases h
  refine ⟨y, ?_⟩
  rw [margin_mirror]
  rfl

end

/-- **C142 (derivatives).** An aircraft with wings and without propellers, and its mirror image, built as in `C142_calls`. Whatever has
been done with the two objects: if a method that reports derivatives returns them for the first, flying in some conditions and with some
controls, then it returns the mirrored derivatives for the second, flying in the mirrored conditions and with the mirrored controls; the
static margin is the same. (With propellers the two objects evaluate the steps in opposite order, and what a propeller returns may depend
on what it has been asked before.) -/
theorem C142_derivatives {table : String → ℝ → ℝ} {mem : String → ℕ → ℕ → Option ℝ} {simps : List ℝ → List ℝ → ℝ} {fuel : ℕ}
    (nm : String) (pos : Option V3) (ops : List PlaneOp) (units : Option (Option String)) (cg : V3) (p p' : Plane)
    (hp : p = { built nm pos ops with units, cg }) (hp' : p' = { built nm (pos.map mir) (ops.map PlaneOp.mirror) with units, cg := mir cg })
    (hw : p.wings ≠ []) (hnp : p.props = [])
    (o o' : Analyser) (ho : openMachUp table mem p = .ok o) (ho' : openMachUp table mem p' = .ok o') :
    ∃ σ : Fin (sectionsOf o.wing) ≃ Fin (sectionsOf o'.wing),
      (∀ i, ((geomOf p'.cg o'.wing).S (σ i)).rcp = mir ((geomOf p.cg o.wing).S i).rcp) ∧
      ∀ (bad bad' : _) (ps : Option PropDict) (f : Option String) (w : World (o.backend p simps fuel bad)) (w' : World (o'.backend p' simps fuel bad'))
        (d : AeroDict (Fin (sectionsOf o.wing))) (c : CtrlDict), w.aero = some d → d.truthy = true → w.ctrl = some c → c.truthy = true →
        w'.aero = some (d.mirror.reindex σ) → w'.ctrl = some c.mirror →
        (∀ D v, stabilityDerivatives ps w = (.ok D, v) → (stabilityDerivatives ps w').1 = .ok D.mirror) ∧
        (∀ D v, controlDerivatives ps w = (.ok D, v) → (controlDerivatives ps w').1 = .ok D.mirror) ∧
        (∀ D v, dampingDerivatives ps w = (.ok D, v) → (dampingDerivatives ps w').1 = .ok D.mirror) ∧
        (∀ D v, derivatives ps f w = (.ok D, v) → (derivatives ps f w').1 = .ok (D.map AllDerivs.mirror)) := by
  have h : CraftMir p p' := by
    have := built_craft nm pos ops
    rw [hp, hp']
    exact { this with cg := rfl }
  obtain ⟨σ, g1, hmax, hO, hslots⟩ := objMir_of h (by rw [hp, hp']) ho ho'
  obtain ⟨hS, hlat, hlong⟩ := refs_mirror h (slots_cases ho).1 (slots_cases ho').1
  refine ⟨σ, g1, fun bad bad' ps f w w' d c hd ht hc hct hd' hc' => ⟨fun D v e => ?_, fun D v e => ?_, fun D v e => ?_, fun D v e => ?_⟩⟩
  · obtain ⟨_, k⟩ := stab_mirror (bad' := bad') hO hw hnp hS hlat hlong hd ht hc hct hd' hc' e
    exact congrArg Prod.fst k
  · obtain ⟨_, k⟩ := cont_mirror (bad' := bad') hO hw hnp hS hlat hlong hd ht hc hct hd' hc' e
    exact congrArg Prod.fst k
  · obtain ⟨_, k⟩ := damp_mirror (bad' := bad') hO hw hnp hS hlat hlong hd ht hc hct hd' hc' e
    exact congrArg Prod.fst k
  · obtain ⟨_, k⟩ := all_mirror (bad' := bad') hO hw hnp hS hlat hlong hd ht hc hct hd' hc' e
    exact congrArg Prod.fst k

/-! ### Examples -/

-- C142: `target_lift` and then `find_aero_center` for an aircraft with a wing and a propeller, and for its mirror image
example (table : String → ℝ → ℝ) (mem : String → ℕ → ℕ → Option ℝ) (simps : List ℝ → List ℝ → ℝ) (fuel : ℕ) :
    ∃ (p' : Plane) (o o' : Analyser), openMachUp table mem craft = .ok o ∧ openMachUp table mem p' = .ok o' ∧
      p'.cg = mir craft.cg ∧ ∃ σ : Fin (sectionsOf o.wing) ≃ Fin (sectionsOf o'.wing),
        ∀ (bad : _) (bad' : _), MirBad σ bad bad' → ∀ (r : Request (Fin (sectionsOf o.wing))) (q : Request (Fin (sectionsOf o.wing))),
          r = ⟨.targetLift 5 1e-10 none, some (exampleState 2 3 10 1), some { aileron := some 1 }, some [("rot_per_sec", .num 30)]⟩ →
          q = ⟨.aeroCenter none, some (exampleState 2 3 10 1), none, some [("rot_per_sec", .num 30)]⟩ →
          Outcome Answer.Mirrored
            ((⟨q.what, q.aero, q.ctrl, q.ps⟩ : AnyCall (o.backend craft simps fuel bad)).run craft.cg
              (afterCalls craft.cg (o.fresh craft simps fuel bad none none) [⟨r.what, r.aero, r.ctrl, r.ps⟩])).1
            ((⟨q.what, (q.mirror σ).aero, (q.mirror σ).ctrl, q.ps⟩ : AnyCall (o'.backend p' simps fuel bad')).run p'.cg
              (afterCalls p'.cg (o'.fresh p' simps fuel bad' none none) [⟨r.what, (r.mirror σ).aero, (r.mirror σ).ctrl, r.ps⟩])).1 := by
  obtain ⟨o, ho⟩ : ∃ o, openMachUp table mem craft = .ok o := let ⟨_, _, _, h⟩ := craft_open table mem; ⟨_, h⟩
  have hcr : craft = { built "craft" none craftOps with units := some none, cg := craft.cg } := rfl
  obtain ⟨o', h'⟩ := (C142_calls (table := table) (mem := mem) (simps := simps) (fuel := fuel) "craft" none craftOps (some none) craft.cg craft _ hcr rfl).1.1 ⟨_, ho⟩
  obtain ⟨σ, -, k⟩ := C142_calls (simps := simps) (table := table) (mem := mem) (fuel := fuel) "craft" none craftOps (some none) craft.cg craft _ hcr rfl |>.2 _ o' ho h'
  refine ⟨_, o, o', ho, h', rfl, σ, fun bad bad' hb r q hr hq => (k bad bad' [r] q ?_).1⟩
  subst hr hq
  intro r hr
  simp only [List.cons_append, List.nil_append, List.mem_cons, List.not_mem_nil, or_false] at hr
  rcases hr with rfl | rfl <;> exact ⟨⟨_, rfl, rfl, rfl⟩, trivial, fun _ _ _ _ => hb⟩

-- C142: the derivatives of a straight wing and of its mirror image; those of the first exist
example (table : String → ℝ → ℝ) (mem : String → ℕ → ℕ → Option ℝ) (simps : List ℝ → List ℝ → ℝ) (fuel : ℕ) :
    ∃ (p' : Plane) (o o' : Analyser), openMachUp table mem unitPlane = .ok o ∧ openMachUp table mem p' = .ok o' ∧
      p' = { built "unit" none (unitOps.map PlaneOp.mirror) with units := none, cg := mir unitPlane.cg } ∧
      ∀ bad bad', ∃ D, (derivatives (B := o.backend unitPlane simps fuel bad) none none
        (o.fresh unitPlane simps fuel bad (some { Vmag := some 10, rho := some 1 }) (some { aileron := some 0 }))).1 = .ok (some D) ∧ D.stab.b ≠ none ∧
        (derivatives (B := o'.backend p' simps fuel bad') none none
          (o'.fresh p' simps fuel bad' (some { Vmag := some 10, rho := some 1 }) (some { aileron := some (-0) }))).1 = .ok (some D.mirror) := by
  obtain ⟨o, ho, -, -, hD⟩ := unit_derives table mem simps fuel
  have hcr : unitPlane = { built "unit" none unitOps with units := none, cg := unitPlane.cg } := rfl
  obtain ⟨o', h'⟩ := (C142_calls (table := table) (mem := mem) (simps := simps) (fuel := fuel) "unit" none unitOps none unitPlane.cg unitPlane _ hcr rfl).1.1 ⟨_, ho⟩
  obtain ⟨σ, -, k⟩ := C142_derivatives (simps := simps) (fuel := fuel) "unit" none unitOps none unitPlane.cg unitPlane _ hcr rfl
    (by rw [unit_wings]; simp) rfl _ o' ho h'
  refine ⟨_, o, o', ho, h', rfl, fun bad bad' => ?_⟩
  obtain ⟨D, v, e, hb, -, -⟩ := hD bad
  refine ⟨D, congrArg Prod.fst e, hb, ?_⟩
  exact (k bad bad' none none _ (o'.fresh _ simps fuel bad' (some { Vmag := some 10, rho := some 1 }) (some { aileron := some (-0) })) _ _ rfl rfl rfl rfl rfl rfl).2.2.2 _ v e

end Verif
