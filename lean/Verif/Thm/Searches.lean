import Verif.Lemmas.FollowSim
import Verif.Thm.Halves
import Verif.Thm.Rename

/-!
# The searches of similar, displaced, halved and renamed aircraft (C141, and C127, C138, C139 for all methods)
-/

namespace Verif
open V3 Act

section
variable {table : String → ℝ → ℝ} {mem : String → ℕ → ℕ → Option ℝ} {simps : List ℝ → List ℝ → ℝ} {fuel : ℕ}

private theorem similar_analysis (what : Analysis) : what.similar 1 1 1 = what := by
  cases what <;> simp [Analysis.similar]

private theorem scales_one (what : Analysis) (g : Prop) : what.Scales 1 1 1 g := by
  cases what <;> simp [Analysis.Scales]

/-- **C141.** Build an aircraft twice, the second time with all lengths `l` times as large, and construct `MachUp` objects for both.
Make any sequence of calls of any methods on the first object, and on the second one the same calls at `k` times the airspeed in air `m`
times as dense (rotation rates and propeller speeds scaled by `k / l`, a lift or moment that is asked for by `m k² l²`).  Then the last
call raises the same exception on both or its answers obey the similarity law: forces are `m k² l²` times as large and moments
`m k² l³` times; the derivatives are the same; the wing that stalls first, the location on it and the angle of attack are the same
and the lift at the stall is `m k² l²` times as large; `target_lift` and `pitch_trim` find the same angles of attack and elevator deflections; the
aerodynamic centre is at `l` times the position.  The dictionaries of the two callers are left related in the same way. -/
theorem C141_calls (nm : String) (pos : Option V3) (ops : List PlaneOp) (units : Option (Option String)) {l k : ℝ} (hl : 0 < l) (hk : 0 < k) (m : ℝ)
    (p p' : Plane) (hp : p = { built nm pos ops with units })
    (hp' : p' = { built nm (pos.map (l • ·)) (ops.map (PlaneOp.enlarge l)) with units }) (o o' : Analyser)
    (ho : openMachUp table mem p = .ok o) (ho' : openMachUp table mem p' = .ok o') :
    ∃ σ : Fin (sectionsOf o.wing) ≃ Fin (sectionsOf o'.wing), (∀ i, (σ i).val = i.val) ∧
      ∀ (bad bad' : _) (hist : List (Request (Fin (sectionsOf o.wing)))) (q : Request (Fin (sectionsOf o.wing))),
        (∀ r ∈ hist ++ [q], r.Conditions ∧ r.NoPower ∧ r.what.Scales l k m r.Controls ∧
          ∀ L e f, r.what = .targetLift L e f → SimBad (simScl l k m hl hk) SameButRate σ bad bad') →
        let call (r : Request (Fin (sectionsOf o.wing))) : AnyCall (o.backend p simps fuel bad) := ⟨r.what, r.aero, r.ctrl, r.ps⟩
        let call' (r : Request (Fin (sectionsOf o'.wing))) : AnyCall (o'.backend p' simps fuel bad') := ⟨r.what, r.aero, r.ctrl, r.ps⟩
        let r := (call q).run p.cg (afterCalls p.cg (o.fresh p simps fuel bad none none) (hist.map call))
        let r' := (call' (q.similar l k m σ)).run p'.cg
          (afterCalls p'.cg (o'.fresh p' simps fuel bad' none none) ((hist.map (Request.similar l k m σ)).map call'))
        Outcome (Answer.Similar l k m) r.1 r'.1 ∧ r'.2.aero = r.2.aero.map (fun d => ((d.faster k m).divRates l).reindex σ) ∧ r'.2.ctrl = r.2.ctrl := by
  have hpe : p' = p.enlarge l := by
    rw [hp, hp', built_enlarge hl.ne']; rfl
  clear hp hp'
  subst hpe
  obtain ⟨σ, hC, hslots⟩ := simCraft_enlarge hl hk m ho ho'
  refine ⟨σ, hC.order, fun bad bad' hist q hq => ?_⟩
  intro call call'
  have key := sim_history (simps := simps) (fuel := fuel) (bad := bad) (bad' := bad') hC (Request.similar l k m σ) (fun r => ⟨rfl, rfl, rfl⟩) hslots hist q
    fun r hr => by
      obtain ⟨h1, h2, h3, h4⟩ := hq r hr
      refine ⟨h1, h3, fun d d' hd => ?_, h4⟩
      have ht := (simDict_truthy hd).1
      rw [hd.1]
      show RunsAlike simps fuel (simScl l k m hl hk) SameButRate d (d.similar l k m σ) (r.ps.getD []) ((r.ps.map (PropDict.scaleRates (k / l))).getD [])
      cases h : r.ps with
      | none => exact runsAlike_similar (ps := []) hl hk m σ simps fuel ht (by intro kv h; simp at h)
      | some x => exact runsAlike_similar hl hk m σ simps fuel ht (h2 x h)
  rw [List.map_map]
  refine ⟨key.1.mono fun a a' h1 h2 h => ?_, key.2⟩
  clear h1 h2
  cases a <;> cases a' <;> first | exact h.elim | exact h | skip
  · exact Eq.trans h (sim_scale rfl _)
  · rename_i r r'
    replace h : Option.Rel (Follow.AnswerAlike Eq (m * k ^ 2 * l ^ 2)) r r' := h
    show Option.Rel _ r r'
    cases h with
    | none => exact .none
    | @some x y h =>
      refine .some ?_
      have res : ∀ {r r' : StallResult}, Follow.StallAlike Eq (m * k ^ 2 * l ^ 2) r r' → r.Like (m * k ^ 2 * l ^ 2) r' := by
        rintro ⟨a, b, c, d⟩ ⟨a', b', c', d'⟩ ⟨h1, h2, h3⟩
        simp only [StallInfo.mk.injEq] at h1 h2 h3
        simp [StallResult.Like, h1, h2, h3.1, h3.2]
      cases x <;> cases y <;> first | exact h.elim | exact res h | exact ⟨res h.1, h.2⟩ | trivial
  · obtain ⟨h1, ⟨h2, h3⟩, h4⟩ := h
    have e : (p.enlarge l).cg = l • p.cg := rfl
    rw [e] at h1 h4
    simp only [V3.smul_x, V3.smul_z] at h1 h4
    change _ = l * _ at h1
    change _ = l * _ at h4
    refine V3.ext ?_ ?_ ?_
    · simp only [V3.smul_x]; linarith
    · simp [h2, h3]
    · simp only [V3.smul_z]; linarith

private theorem renamed_of {cg : V3} {s : Scl} (hs : ∀ T : Loads, T.sim s = T) (hl : s.l = 1) (hk : s.k = 1) (hm : s.m = 1) {a a' : Answer}
    (h : Answer.Alike s (fun _ _ => True) cg cg a a') : a.Renamed a' := by
  have ha : s.a = 1 := by simp [Scl.a, hl, hk, hm]
  cases a <;> cases a' <;> first | exact h.elim | exact congrArg _ h | skip
  · have := hs
    exact congrArg _ (Eq.trans h (hs _))
  · rename_i r r'
    replace h : Option.Rel (Follow.AnswerAlike (fun _ _ => True) s.a) r r' := h
    rw [ha] at h
    show Option.Rel _ r r'
    cases h with
    | none => exact .none
    | @some x y h =>
      refine .some ?_
      have res : ∀ {r r' : StallResult}, Follow.StallAlike (fun _ _ => True) 1 r r' → r.SameStall r' := by
        rintro r r' ⟨h1, h2, -⟩
        exact ⟨h1, h2.trans (one_mul _)⟩
      cases x <;> cases y <;> first | exact h.elim | exact res h | exact ⟨res h.1, h.2⟩ | trivial
  · obtain ⟨h1, ⟨h2, h3⟩, h4⟩ := h
    rw [hl] at h1 h4
    refine congrArg _ (V3.ext ?_ (h3.trans h2.symm) ?_) <;> linarith

/-- **C127** (all methods). On the two aircraft of `C127_displaced`, make any sequence of calls of any methods, the same calls on both
(airspeed and density given).  The last one raises the same exception on both or gives the same answer, the aerodynamic centre being
displaced too. -/
theorem C127_calls (nm : String) (pos : Option V3) (ops : List PlaneOp) (hc : ParentsAdded ops) (units : Option (Option String)) (cg δ : V3)
    (p p' : Plane) (hp : p = { built nm pos ops with units, cg })
    (hp' : p' = { built nm (some (pos.getD 0 + δ)) (ops.map (PlaneOp.moveProp δ)) with units, cg := cg + δ })
    (o o' : Analyser) (ho : openMachUp table mem p = .ok o) (ho' : openMachUp table mem p' = .ok o') :
    ∃ σ : Fin (sectionsOf o.wing) ≃ Fin (sectionsOf o'.wing), (∀ i, (σ i).val = i.val) ∧
      ∀ (bad bad' : _) (hist : List (Request (Fin (sectionsOf o.wing)))) (q : Request (Fin (sectionsOf o.wing))),
        (∀ r ∈ hist ++ [q], r.Conditions ∧ ∀ L e f, r.what = .targetLift L e f → SimBad (moveScl δ) (fun st st' => st' = st) σ bad bad') →
        let call (r : Request (Fin (sectionsOf o.wing))) : AnyCall (o.backend p simps fuel bad) := ⟨r.what, r.aero, r.ctrl, r.ps⟩
        let call' (r : Request (Fin (sectionsOf o'.wing))) : AnyCall (o'.backend p' simps fuel bad') := ⟨r.what, r.aero, r.ctrl, r.ps⟩
        let r := (call q).run p.cg (afterCalls p.cg (o.fresh p simps fuel bad none none) (hist.map call))
        let r' := (call' (q.reindex σ)).run p'.cg (afterCalls p'.cg (o'.fresh p' simps fuel bad' none none) ((hist.map (Request.reindex σ)).map call'))
        Outcome (Answer.Displaced δ) r.1 r'.1 ∧ r'.2.aero = r.2.aero.map (·.reindex σ) ∧ r'.2.ctrl = r.2.ctrl := by
  have hcon : AllConnected p := by
    rw [hp]; exact allConnected_of (nm := nm) (pos := pos) hc
  have hpe : p' = p.carried δ := by
    rw [hp, hp', built_relocated]; rfl
  clear hp hp'
  subst hpe
  obtain ⟨σ, hC, hslots⟩ := simCraft_carried δ hcon ho ho'
  refine ⟨σ, hC.order, fun bad bad' hist q hq => ?_⟩
  intro call call'
  have e : (fun d : AeroDict (Fin (sectionsOf o.wing)) => d.similar 1 1 1 σ) = fun d => d.reindex σ := funext (similar_one σ)
  have key := sim_history (simps := simps) (fuel := fuel) (bad := bad) (bad' := bad') hC (Request.reindex σ)
    (fun r => ⟨(similar_analysis _).symm, congrArg (fun f => r.aero.map f) e.symm, rfl⟩) hslots hist q
    fun r hr => by
      obtain ⟨h1, h2⟩ := hq r hr
      refine ⟨h1, scales_one _ _, fun d d' hd => ?_, h2⟩
      have ht := (simDict_truthy hd).1
      have ed : d' = d.reindex σ := hd.1.trans (similar_one σ d)
      rw [ed]
      exact runsAlike_move σ simps fuel δ ht _
  rw [List.map_map]
  refine ⟨key.1.mono fun a a' h1 h2 h => ?_, key.2.1.trans (congrArg (fun f => Option.map f _) e), key.2.2⟩
  clear h1 h2
  have ha : (moveScl δ).a = 1 := by simp [Scl.a, moveScl]
  cases a <;> cases a' <;> first | exact h.elim | exact congrArg _ h | skip
  · exact congrArg _ (Eq.trans h (moveLoads δ _))
  · rename_i r r'
    replace h : Option.Rel (Follow.AnswerAlike Eq (moveScl δ).a) r r' := h
    rw [ha] at h
    refine congrArg Answer.stall ?_
    cases h with
    | none => rfl
    | @some x y h =>
      have res : ∀ {r r' : StallResult}, Follow.StallAlike Eq 1 r r' → r' = r := by
        rintro ⟨a, b, c, d⟩ ⟨a', b', c', d'⟩ ⟨h1, h2, h3⟩
        simp only [StallInfo.mk.injEq, one_mul] at h1 h2 h3
        simp [h1, h2, h3.1, h3.2]
      cases x <;> cases y <;> first | exact h.elim | rw [res h] | rw [res h.1, h.2] | rfl
  · obtain ⟨h1, ⟨h2, h3⟩, h4⟩ := h
    have e : (p.carried δ).cg = p.cg + δ := rfl
    rw [e] at h1 h4
    simp only [V3.add_x, V3.add_z] at h1 h4
    change _ = 1 * _ at h1
    change _ = 1 * _ at h4
    refine V3.ext ?_ ?_ ?_
    · simp only [V3.add_x]; linarith
    · simp [h2, h3]
    · simp only [V3.add_z]; linarith

/-- all calls on two planes that differ in the names of the sections -/
private theorem calls_relabel {p p' : Plane} (h : Relabels p p') {o o' : Analyser} (ho : openMachUp table mem p = .ok o)
    (ho' : openMachUp table mem p' = .ok o') :
    ∃ σ : Fin (sectionsOf o.wing) ≃ Fin (sectionsOf o'.wing), (∀ i, (σ i).val = i.val) ∧
      ∀ (bad bad' : _) (hist : List (Request (Fin (sectionsOf o.wing)))) (q : Request (Fin (sectionsOf o.wing))),
        (∀ r ∈ hist ++ [q], r.Conditions ∧ ∀ L e f, r.what = .targetLift L e f → SimBad (moveScl 0) (fun st st' => st' = st) σ bad bad') →
        let call (r : Request (Fin (sectionsOf o.wing))) : AnyCall (o.backend p simps fuel bad) := ⟨r.what, r.aero, r.ctrl, r.ps⟩
        let call' (r : Request (Fin (sectionsOf o'.wing))) : AnyCall (o'.backend p' simps fuel bad') := ⟨r.what, r.aero, r.ctrl, r.ps⟩
        let r := (call q).run p.cg (afterCalls p.cg (o.fresh p simps fuel bad none none) (hist.map call))
        let r' := (call' (q.reindex σ)).run p'.cg (afterCalls p'.cg (o'.fresh p' simps fuel bad' none none) ((hist.map (Request.reindex σ)).map call'))
        Outcome Answer.Renamed r.1 r'.1 ∧ r'.2.aero = r.2.aero.map (·.reindex σ) ∧ r'.2.ctrl = r.2.ctrl := by
  obtain ⟨σ, hC, hslots⟩ := simCraft_relabel h ho ho'
  refine ⟨σ, hC.order, fun bad bad' hist q hq => ?_⟩
  intro call call'
  have e : (fun d : AeroDict (Fin (sectionsOf o.wing)) => d.similar 1 1 1 σ) = fun d => d.reindex σ := funext (similar_one σ)
  have key := sim_history (simps := simps) (fuel := fuel) (bad := bad) (bad' := bad') hC (Request.reindex σ)
    (fun r => ⟨(similar_analysis _).symm, congrArg (fun f => r.aero.map f) e.symm, rfl⟩) hslots hist q
    fun r hr => by
      obtain ⟨h1, h2⟩ := hq r hr
      refine ⟨h1, scales_one _ _, fun d d' hd => ?_, h2⟩
      have ht := (simDict_truthy hd).1
      have ed : d' = d.reindex σ := hd.1.trans (similar_one σ d)
      rw [ed]
      exact runsAlike_move σ simps fuel 0 ht _
  rw [List.map_map]
  refine ⟨key.1.mono fun a a' _ _ hh => ?_, key.2.1.trans (congrArg (fun f => Option.map f _) e), key.2.2⟩
  rw [h.cg] at hh
  exact renamed_of (moveLoads 0) rfl rfl rfl hh

/-- **C138** (all methods). On the two aircraft of `C138_halves`, make any sequence of calls of any methods, the same calls on both
(airspeed and density given).  The last one raises the same exception on both or gives the same answer, except for the name of the
wing that stalls and the location on it. -/
theorem C138_calls
    (nm : String) (pos : Option V3) (before after : List PlaneOp) (units : Option (Option String))
    (w w' : String) (parent : Option String) (location : String) (d : WingDims) (N : ℕ)
    (hw : w ≠ "") (hw' : w' ≠ "") (hww : w ≠ w')
    (hfresh : ∀ nm parent location side d, .addWing nm parent location side d ∈ before → nm ≠ w ∧ nm ≠ w')
    (hpar : parent ≠ some w) (hpar' : parent ≠ some w')
    (hN : N = (built nm pos before).heap.length) (hafter : HalfCalls w w' after) (p p' : Plane)
    (hp : p = { built nm pos (before ++ [.addWing w parent location "both" d] ++ after) with units })
    (hp' : p' = { built nm pos (before ++ [.addWing w parent location "left" d, .addWing w' parent location "right" d] ++
      after.flatMap (PlaneOp.halve N w w')) with units })
    (o o' : Analyser) (ho : openMachUp table mem p = .ok o) (ho' : openMachUp table mem p' = .ok o') :
    ∃ σ : Fin (sectionsOf o.wing) ≃ Fin (sectionsOf o'.wing), (∀ i, (σ i).val = i.val) ∧
      ∀ (bad bad' : _) (hist : List (Request (Fin (sectionsOf o.wing)))) (q : Request (Fin (sectionsOf o.wing))),
        (∀ r ∈ hist ++ [q], r.Conditions ∧ ∀ L e f, r.what = .targetLift L e f → SimBad (moveScl 0) (fun st st' => st' = st) σ bad bad') →
        let call (r : Request (Fin (sectionsOf o.wing))) : AnyCall (o.backend p simps fuel bad) := ⟨r.what, r.aero, r.ctrl, r.ps⟩
        let call' (r : Request (Fin (sectionsOf o'.wing))) : AnyCall (o'.backend p' simps fuel bad') := ⟨r.what, r.aero, r.ctrl, r.ps⟩
        let r := (call q).run p.cg (afterCalls p.cg (o.fresh p simps fuel bad none none) (hist.map call))
        let r' := (call' (q.reindex σ)).run p'.cg (afterCalls p'.cg (o'.fresh p' simps fuel bad' none none) ((hist.map (Request.reindex σ)).map call'))
        Outcome Answer.Renamed r.1 r'.1 ∧ r'.2.aero = r.2.aero.map (·.reindex σ) ∧ r'.2.ctrl = r.2.ctrl :=
  calls_relabel (halves_relabels nm pos before after units w w' parent location d N hw hw' hww hfresh hpar hpar' hN hafter p p' hp hp') ho ho'

/-- **C139** (all methods). The same for the two aircraft of `C139_renamed`, which differ in the names of their wings. -/
theorem C139_calls
    (nm nm' : String) (pos : Option V3) (ops : List PlaneOp) (units : Option (Option String))
    (ρ : String → String) (hρ : Function.Injective ρ) (h0 : ρ "" = "") (p p' : Plane)
    (hp : p = { built nm pos ops with units }) (hp' : p' = { built nm' pos (ops.map (PlaneOp.renameWings ρ)) with units })
    (o o' : Analyser) (ho : openMachUp table mem p = .ok o) (ho' : openMachUp table mem p' = .ok o') :
    ∃ σ : Fin (sectionsOf o.wing) ≃ Fin (sectionsOf o'.wing), (∀ i, (σ i).val = i.val) ∧
      ∀ (bad bad' : _) (hist : List (Request (Fin (sectionsOf o.wing)))) (q : Request (Fin (sectionsOf o.wing))),
        (∀ r ∈ hist ++ [q], r.Conditions ∧ ∀ L e f, r.what = .targetLift L e f → SimBad (moveScl 0) (fun st st' => st' = st) σ bad bad') →
        let call (r : Request (Fin (sectionsOf o.wing))) : AnyCall (o.backend p simps fuel bad) := ⟨r.what, r.aero, r.ctrl, r.ps⟩
        let call' (r : Request (Fin (sectionsOf o'.wing))) : AnyCall (o'.backend p' simps fuel bad') := ⟨r.what, r.aero, r.ctrl, r.ps⟩
        let r := (call q).run p.cg (afterCalls p.cg (o.fresh p simps fuel bad none none) (hist.map call))
        let r' := (call' (q.reindex σ)).run p'.cg (afterCalls p'.cg (o'.fresh p' simps fuel bad' none none) ((hist.map (Request.reindex σ)).map call'))
        Outcome Answer.Renamed r.1 r'.1 ∧ r'.2.aero = r.2.aero.map (·.reindex σ) ∧ r'.2.ctrl = r.2.ctrl :=
  calls_relabel (renamed_relabels nm nm' pos ops units ρ hρ h0 p p' hp hp') ho ho'

end

/-- Non-vacuity of C141: the demonstration aircraft and the same twice as large and three times as fast; after `target_lift` and
`stall_onset`, `stability_derivatives` at 3 degrees returns the same for both. -/
example (table : String → ℝ → ℝ) (mem : String → ℕ → ℕ → Option ℝ) (simps : List ℝ → List ℝ → ℝ) (fuel : ℕ) : ∃ (o o' : Analyser) (p' : Plane),
    p' = { built "unit" none (unitOps.map (PlaneOp.enlarge 2)) with units := unitPlane.units } ∧
    openMachUp table mem unitPlane = .ok o ∧ openMachUp table mem p' = .ok o' ∧
    ∃ σ : Fin (sectionsOf o.wing) ≃ Fin (sectionsOf o'.wing),
      let call (r : Request (Fin (sectionsOf o.wing))) : AnyCall (o.backend unitPlane simps fuel (pure none)) := ⟨r.what, r.aero, r.ctrl, r.ps⟩
      let call' (r : Request (Fin (sectionsOf o'.wing))) : AnyCall (o'.backend p' simps fuel (pure none)) := ⟨r.what, r.aero, r.ctrl, r.ps⟩
      let hist : List (Request (Fin (sectionsOf o.wing))) :=
        [⟨.targetLift 5 1e-10 none, some (exampleState 2 0 10 1), none, none⟩, ⟨.stallOnset none 9, some (exampleState 2 0 10 1), none, none⟩]
      let stab : Request (Fin (sectionsOf o.wing)) := ⟨.stability, some (exampleState 3 0 10 1), none, none⟩
      ∃ D, ((call stab).run unitPlane.cg (afterCalls unitPlane.cg (o.fresh unitPlane simps fuel (pure none) none none) (hist.map call))).1 =
          .ok (.stab D) ∧
        ((call' (stab.similar 2 3 1 σ)).run p'.cg
          (afterCalls p'.cg (o'.fresh p' simps fuel (pure none) none none) ((hist.map (Request.similar 2 3 1 σ)).map call'))).1 = .ok (.stab D) := by
  obtain ⟨g, hg⟩ := grid_exists _ _ _ unit_wellFormed true
  have ho := unit_open table mem hg
  obtain ⟨o', ho'⟩ := (C122_similar table mem simps fuel "unit" none unitOps unitPlane.units (l := 2) (k := 3) (by norm_num) (by norm_num) 1
    unitPlane _ rfl rfl).1.1 ⟨_, ho⟩
  obtain ⟨σ, -, h⟩ := C141_calls (simps := simps) (fuel := fuel) "unit" none unitOps unitPlane.units (l := 2) (k := 3) (by norm_num) (by norm_num) 1
    unitPlane _ rfl rfl _ o' ho ho'
  refine ⟨_, o', _, rfl, ho, ho', σ, ?_⟩
  intro call call' hist stab
  have front : ∀ a b : ℝ, |a| < 90 → |b| < 90 → FromFront unitPlane a b := by
    intro a b ha hb
    refine ⟨hb, fun s hs => ?_⟩
    rw [unit_segments] at hs
    rcases List.mem_pair.1 hs with rfl | rfl <;> simpa [unitSeg] using ha
  have hw : unitPlane.wings ≠ [] := by rw [unit_wings]; simp
  have good : ∀ a b : ℝ, |a| < 90 → |b| < 90 → ∃ x y, Plain ({ (exampleState 3 0 10 1 : AeroDict
      (Fin (sectionsOf (some (⟨g, 2, g.refArea / 2⟩ : WingPart))))) with alpha := some a, beta := some b }) 10 1 x y ∧ FromFront unitPlane x y :=
    fun a b ha hb => ⟨a, b, ⟨rfl, rfl, rfl, rfl, rfl, rfl, rfl, rfl⟩, front a b ha hb⟩
  obtain ⟨D, v, hD⟩ := stab_returns (B := Analyser.backend ⟨some ⟨g, 2, g.refArea / 2⟩, none⟩ unitPlane simps fuel (pure none)) (ps := none)
    (w := { afterCalls unitPlane.cg (Analyser.fresh ⟨some ⟨g, 2, g.refArea / 2⟩, none⟩ unitPlane simps fuel (pure none) none none) (hist.map call) with
      aero := some (exampleState 3 0 10 1), ctrl := none })
    (good := fun d' => ∃ x y, Plain d' 10 1 x y ∧ FromFront unitPlane x y)
    (by show (!unitPlane.wings.isEmpty) = true; simp [hw]) rfl
    (fun w1 d1 hd1 ⟨x, y, h1, h2⟩ => by
      obtain ⟨t, ht⟩ := straight_muSolve (wp := ⟨g, 2, g.refArea / 2⟩) unit_straight hw rfl hg h1 (by norm_num) h2 w1 hd1 none
      exact ⟨t, _, Prod.ext ht rfl⟩) (d := exampleState 3 0 10 1) rfl rfl
    (good (3 - 0.5) 0 (by norm_num [abs_lt]) (by norm_num)) (good (3 + 0.5) 0 (by norm_num [abs_lt]) (by norm_num))
    (good 3 (0 - 0.5) (by norm_num [abs_lt]) (by norm_num [abs_lt])) (good 3 (0 + 0.5) (by norm_num [abs_lt]) (by norm_num [abs_lt]))
  have e : ((call stab).run unitPlane.cg (afterCalls unitPlane.cg (Analyser.fresh ⟨some ⟨g, 2, g.refArea / 2⟩, none⟩ unitPlane simps fuel (pure none)
      none none) (hist.map call))).1 = .ok (.stab D) := congrArg Prod.fst (bind_of_ok hD fun r => pure (Answer.stab r))
  have hk := (h (pure none) (pure none) hist stab (by
    intro r hr
    have hb : SimBad (simScl 2 3 1 (by norm_num) (by norm_num)) SameButRate σ (pure none) (pure none) := Lock.ret rfl
    simp only [hist, stab, List.cons_append, List.nil_append, List.mem_cons, List.not_mem_nil, or_false] at hr
    rcases hr with rfl | rfl | rfl
    · exact ⟨⟨_, rfl, rfl, rfl⟩, by rintro _ ⟨⟩, one_ne_zero, fun _ _ _ _ => hb⟩
    · exact ⟨⟨_, rfl, rfl, rfl⟩, by rintro _ ⟨⟩, trivial, fun _ _ _ _ => hb⟩
    · exact ⟨⟨_, rfl, rfl, rfl⟩, by rintro _ ⟨⟩, one_ne_zero, fun _ _ _ _ => hb⟩)).1
  have e' : ∀ (r r' : Except PyErr Answer) (D : StabDeriv), Outcome (Answer.Similar 2 3 1) r r' → r = .ok (.stab D) → r' = .ok (.stab D) := by
    rintro r (e | A) D h rfl
    · exact h.elim
    · cases A with
      | stab D' => exact congrArg (fun x => Except.ok (Answer.stab x)) h
      | _ => exact h.elim
  exact ⟨D, e, e' _ _ D hk e⟩

/-- the calls of the examples below: `target_lift` and then `find_aero_center` -/
private noncomputable def someCalls (n : ℕ) : List (Request (Fin n)) × Request (Fin n) :=
  ([⟨.targetLift 5 1e-10 none, some (exampleState 2 0 10 1), none, some [("rot_per_sec", .num 30)]⟩],
    ⟨.aeroCenter none, some (exampleState 2 0 10 1), none, some [("rot_per_sec", .num 30)]⟩)

private theorem someCalls_given (n : ℕ) : ∀ r ∈ (someCalls n).1 ++ [(someCalls n).2], r.Conditions := by
  intro r hr
  simp only [someCalls, List.cons_append, List.nil_append, List.mem_cons, List.not_mem_nil, or_false] at hr
  rcases hr with rfl | rfl <;> exact ⟨_, rfl, rfl, rfl⟩

/-- the answer to the last call -/
private noncomputable def lastAnswer (simps : List ℝ → List ℝ → ℝ) (fuel : ℕ) (p : Plane) (o : Analyser) (what : Request (Fin (sectionsOf o.wing)))
    (hist : List (Request (Fin (sectionsOf o.wing)))) : Except PyErr Answer :=
  let call (r : Request (Fin (sectionsOf o.wing))) : AnyCall (o.backend p simps fuel (pure none)) := ⟨r.what, r.aero, r.ctrl, r.ps⟩
  ((call what).run p.cg (afterCalls p.cg (o.fresh p simps fuel (pure none) none none) (hist.map call))).1

-- C127, C138, C139: an aircraft with a wing and a propeller, displaced, with its wing added as two halves, with its wing renamed:
-- `target_lift` and then `find_aero_center`
example (table : String → ℝ → ℝ) (mem : String → ℕ → ℕ → Option ℝ) (simps : List ℝ → List ℝ → ℝ) (fuel : ℕ) :
    ∃ (p' : Plane) (o o' : Analyser), openMachUp table mem craft = .ok o ∧ openMachUp table mem p' = .ok o' ∧ p'.cg = craft.cg + ⟨1, 2, 3⟩ ∧
      ∃ σ : Fin (sectionsOf o.wing) ≃ Fin (sectionsOf o'.wing),
        Outcome (Answer.Displaced ⟨1, 2, 3⟩) (lastAnswer simps fuel craft o (someCalls _).2 (someCalls _).1)
          (lastAnswer simps fuel p' o' ((someCalls _).2.reindex σ) ((someCalls _).1.map (Request.reindex σ))) := by
  obtain ⟨o, ho⟩ : ∃ o, openMachUp table mem craft = .ok o := let ⟨_, _, _, h⟩ := craft_open table mem; ⟨_, h⟩
  have hcr : craft = { built "craft" none craftOps with units := some none, cg := craft.cg } := rfl
  obtain ⟨o', h'⟩ := (C127_displaced table mem simps fuel "craft" none craftOps craft_connected (some none) craft.cg ⟨1, 2, 3⟩
    craft _ hcr rfl).1.1 ⟨_, ho⟩
  obtain ⟨σ, -, k⟩ := C127_calls (simps := simps) (fuel := fuel) "craft" none craftOps craft_connected (some none) craft.cg ⟨1, 2, 3⟩ craft _ hcr rfl
    _ o' ho h'
  exact ⟨_, o, o', ho, h', rfl, σ, (k (pure none) (pure none) _ _ fun r hr => ⟨someCalls_given _ r hr, fun _ _ _ _ => Lock.ret rfl⟩).1⟩

example (table : String → ℝ → ℝ) (mem : String → ℕ → ℕ → Option ℝ) (simps : List ℝ → List ℝ → ℝ) (fuel : ℕ) :
    ∃ (p' : Plane) (o o' : Analyser), openMachUp table mem craft = .ok o ∧ openMachUp table mem p' = .ok o' ∧
      ∃ σ : Fin (sectionsOf o.wing) ≃ Fin (sectionsOf o'.wing),
        Outcome Answer.Renamed (lastAnswer simps fuel craft o (someCalls _).2 (someCalls _).1)
          (lastAnswer simps fuel p' o' ((someCalls _).2.reindex σ) ((someCalls _).1.map (Request.reindex σ))) := by
  obtain ⟨o, ho⟩ : ∃ o, openMachUp table mem craft = .ok o := let ⟨_, _, _, h⟩ := craft_open table mem; ⟨_, h⟩
  have hcr : craft = { built "craft" none ([] ++ [.addWing "w" none "tip" "both" { semispan := some 1, grid := some 1 }] ++ (unitOps.tail ++ rotorOps)) with
      units := some none } := rfl
  have hh : HalfCalls "w" "v" (unitOps.tail ++ rotorOps) := ⟨by simp [unitOps, rotorOps], by simp [unitOps, rotorOps]⟩
  obtain ⟨o', h'⟩ := (C138_halves table mem simps fuel "craft" none [] (unitOps.tail ++ rotorOps) (some none) "w" "v" none "tip"
    { semispan := some 1, grid := some 1 } 0 (by decide) (by decide) (by decide) (by simp) (by simp) (by simp) rfl hh craft _ hcr rfl).1.1 ⟨_, ho⟩
  obtain ⟨σ, -, k⟩ := C138_calls (simps := simps) (fuel := fuel) "craft" none [] (unitOps.tail ++ rotorOps) (some none) "w" "v" none "tip"
    { semispan := some 1, grid := some 1 } 0 (by decide) (by decide) (by decide) (by simp) (by simp) (by simp) rfl hh craft _ hcr rfl _ o' ho h'
  exact ⟨_, o, o', ho, h', σ, (k (pure none) (pure none) _ _ fun r hr => ⟨someCalls_given _ r hr, fun _ _ _ _ => Lock.ret rfl⟩).1⟩

example (table : String → ℝ → ℝ) (mem : String → ℕ → ℕ → Option ℝ) (simps : List ℝ → List ℝ → ℝ) (fuel : ℕ) :
    ∃ (p' : Plane) (o o' : Analyser), openMachUp table mem craft = .ok o ∧ openMachUp table mem p' = .ok o' ∧
      ∃ σ : Fin (sectionsOf o.wing) ≃ Fin (sectionsOf o'.wing),
        Outcome Answer.Renamed (lastAnswer simps fuel craft o (someCalls _).2 (someCalls _).1)
          (lastAnswer simps fuel p' o' ((someCalls _).2.reindex σ) ((someCalls _).1.map (Request.reindex σ))) := by
  obtain ⟨o, ho⟩ : ∃ o, openMachUp table mem craft = .ok o := let ⟨_, _, _, h⟩ := craft_open table mem; ⟨_, h⟩
  have hcr : craft = { built "craft" none craftOps with units := some none } := rfl
  obtain ⟨o', h'⟩ := (C139_renamed table mem simps fuel "craft" "craft" none craftOps (some none) (Equiv.swap "w" "v") (Equiv.injective _) (by decide)
    craft _ hcr rfl).1.1 ⟨_, ho⟩
  obtain ⟨σ, -, k⟩ := C139_calls (simps := simps) (fuel := fuel) "craft" "craft" none craftOps (some none) (Equiv.swap "w" "v") (Equiv.injective _) (by decide)
    craft _ hcr rfl _ o' ho h'
  exact ⟨_, o, o', ho, h', σ, (k (pure none) (pure none) _ _ fun r hr => ⟨someCalls_given _ r hr, fun _ _ _ _ => Lock.ret rfl⟩).1⟩

end Verif
