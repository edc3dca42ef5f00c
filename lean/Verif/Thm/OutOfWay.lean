import Verif.Lemmas.OutOfWay
import Verif.Thm.Omitted
import Verif.Thm.CraftDerivs

/-!
# C147: propellers whose slipstreams miss the wings add only their own loads
-/

namespace Verif
open V3 Act

variable {table : String → ℝ → ℝ} {mem : String → ℕ → ℕ → Option ℝ} {simps : List ℝ → List ℝ → ℝ} {fuel : ℕ}

/-- the states of the objects for the aircraft, for its wings and for its propellers -/
structure Parts (p : Plane) {ι κ : Type} (st st0 : LLState ι × List (PropSlot ι)) (st1 : LLState κ × List (PropSlot κ)) : Prop where
  ctrl : st0.1.ctrl = st.1.ctrl
  slots : List.Forall₂ (SlotSim (moveScl 0) fun st st' => st' = st) st.2 st1.2
  geom : ∀ sl ∈ st.2, ∃ kv ∈ p.props, sl.model.geom = kv.2

theorem slots_withCg {ι κ : Type} (cg : V3) {l : List (PropSlot ι)} {l' : List (PropSlot κ)}
    (h : List.Forall₂ (SlotSim (moveScl 0) fun st st' => st' = st) l l') :
    List.Forall₂ (SlotSim (moveScl 0) fun st st' => st' = st) (l.map (·.withCg cg)) (l'.map (·.withCg cg)) := by
  have e : (moveScl 0).l • cg + (moveScl 0).t + (moveScl 0).e = cg := by ext <;> simp [moveScl]
  have := slotSim_withCg cg h
  rwa [e] at this

theorem solves_cons_ok {o : Analyser} {p : Plane}
    {bad : Act (LLState (Fin (sectionsOf o.wing)) × List (PropSlot (Fin (sectionsOf o.wing)))) (Option Loads)}
    {w w' : World (o.backend p simps fuel bad)} {a : SolveArgs (Fin (sectionsOf o.wing))} {calls : List (SolveArgs (Fin (sectionsOf o.wing)))}
    {T : Loads} (h : muSolve (B := o.backend p simps fuel bad) a.prop { w with aero := some a.aero, ctrl := a.ctrl } = (.ok T, w'))
    (Ts : List Loads) :
    o.solves p simps fuel bad w (a :: calls) = .ok Ts ↔ ∃ Ts', o.solves p simps fuel bad w' calls = .ok Ts' ∧ Ts = T :: Ts' := by
  rw [Analyser.solves, h]
  simp only
  generalize o.solves p simps fuel bad w' calls = r
  rcases r with e | Ts'
  · constructor
    · intro h; cases h
    · rintro ⟨_, h, _⟩; cases h
  · constructor
    · intro h; cases h; exact ⟨_, rfl, rfl⟩
    · rintro ⟨_, h, rfl⟩; cases h; rfl

theorem solves_cons_error {o : Analyser} {p : Plane}
    {bad : Act (LLState (Fin (sectionsOf o.wing)) × List (PropSlot (Fin (sectionsOf o.wing)))) (Option Loads)}
    {w w' : World (o.backend p simps fuel bad)} {a : SolveArgs (Fin (sectionsOf o.wing))} {calls : List (SolveArgs (Fin (sectionsOf o.wing)))}
    {e : PyErr} (h : muSolve (B := o.backend p simps fuel bad) a.prop { w with aero := some a.aero, ctrl := a.ctrl } = (.error e, w'))
    (Ts : List Loads) : ¬ o.solves p simps fuel bad w (a :: calls) = .ok Ts := by
  rw [Analyser.solves, h]
  intro h
  cases h

theorem solves_length {o : Analyser} {p : Plane}
    {bad : Act (LLState (Fin (sectionsOf o.wing)) × List (PropSlot (Fin (sectionsOf o.wing)))) (Option Loads)}
    {w : World (o.backend p simps fuel bad)} {calls : List (SolveArgs (Fin (sectionsOf o.wing)))} {Ts : List Loads}
    (h : o.solves p simps fuel bad w calls = .ok Ts) : Ts.length = calls.length := by
  induction calls generalizing w Ts with
  | nil => rw [Analyser.solves] at h; cases h; rfl
  | cons a calls ih =>
    rcases hm : muSolve (B := o.backend p simps fuel bad) a.prop { w with aero := some a.aero, ctrl := a.ctrl } with ⟨e | T, w'⟩
    · exact absurd h (solves_cons_error hm Ts)
    · obtain ⟨Ts', h', rfl⟩ := (solves_cons_ok hm Ts).1 h
      simp [ih h']

section
variable {W : WingPart} {s : List (PropSlot (Fin (sectionsOf (some W))))} {s1 : List (PropSlot (Fin 0))} {p p0 p1 : Plane}
  {bad bad0 : Act (LLState (Fin (sectionsOf (some W))) × List (PropSlot (Fin (sectionsOf (some W))))) (Option Loads)}
  {bad1 : Act (LLState (Fin 0) × List (PropSlot (Fin 0))) (Option Loads)}

/-- one solve -/
theorem solve_apart (hw : p.wings ≠ []) (hq : p.props ≠ []) (hw0 : p0.wings ≠ []) (hq0 : p0.props = []) (hw1 : p1.wings = [])
    (hq1 : p1.props ≠ []) (hc0 : p0.cg = p.cg) (hc1 : p1.cg = p.cg)
    (hclear : ∀ kv ∈ p.props, ∀ x ∈ W.grid.data, kv.2.Misses x.rcp)
    (a : SolveArgs (Fin (sectionsOf (some W)))) (ha : (a.aero.elsewhere : AeroDict (Fin 0)).truthy = true)
    (w : World (Analyser.backend ⟨some W, some s⟩ p simps fuel bad)) (w0 : World (Analyser.backend ⟨some W, none⟩ p0 simps fuel bad0))
    (w1 : World (Analyser.backend ⟨none, some s1⟩ p1 simps fuel bad1)) (h : Parts p w.st w0.st w1.st) :
    let r := muSolve (B := Analyser.backend ⟨some W, some s⟩ p simps fuel bad) a.prop { w with aero := some a.aero, ctrl := a.ctrl }
    let r0 := muSolve (B := Analyser.backend ⟨some W, none⟩ p0 simps fuel bad0) a.prop { w0 with aero := some a.aero.elsewhere, ctrl := a.ctrl }
    let r1 := muSolve (B := Analyser.backend ⟨none, some s1⟩ p1 simps fuel bad1) a.prop { w1 with aero := some a.aero.elsewhere, ctrl := a.ctrl }
    (∃ T w' T0 w0' T1 w1', r = (.ok T, w') ∧ r0 = (.ok T0, w0') ∧ r1 = (.ok T1, w1') ∧ T = T1.add T0 ∧ Parts p w'.st w0'.st w1'.st) ∨
    (∃ e w', r = (.error e, w')) ∧ ((∃ e w', r0 = (.error e, w')) ∨ ∃ e w', r1 = (.error e, w')) := by
  obtain ⟨d, c, ps⟩ := a
  intro r r0 r1
  simp only at ha r r0 r1
  have hd : d.truthy = true := (flowSim_elsewhere ha).given
  have hd0 : (d.elsewhere : AeroDict (Fin (sectionsOf (some W)))).truthy = true := ha
  have e : r = _ := muSolve_props (B := Analyser.backend ⟨some W, some s⟩ p simps fuel bad)
    (by show (!p.props.isEmpty) = true; rw [List.isEmpty_eq_false_iff.2 hq]; rfl) ps { w with aero := some d, ctrl := c } rfl hd
  have e0 : r0 = _ := muSolve_noProps (B := Analyser.backend ⟨some W, none⟩ p0 simps fuel bad0)
    (by show (!p0.props.isEmpty) = false; rw [hq0]; rfl) { w0 with aero := some d.elsewhere, ctrl := c } rfl hd0
  have e1 : r1 = _ := muSolve_props (B := Analyser.backend ⟨none, some s1⟩ p1 simps fuel bad1)
    (by show (!p1.props.isEmpty) = true; rw [List.isEmpty_eq_false_iff.2 hq1]; rfl) ps { w1 with aero := some d.elsewhere, ctrl := c } rfl ha
  have hW : (Analyser.backend ⟨some W, some s⟩ p simps fuel bad).hasWings = true := by
    show (!p.wings.isEmpty) = true; rw [List.isEmpty_eq_false_iff.2 hw]; rfl
  have hW0 : (Analyser.backend ⟨some W, none⟩ p0 simps fuel bad0).hasWings = true := by
    show (!p0.wings.isEmpty) = true; rw [List.isEmpty_eq_false_iff.2 hw0]; rfl
  have hW1 : ¬ (Analyser.backend ⟨none, some s1⟩ p1 simps fuel bad1).hasWings = true := by
    show ¬ (!p1.wings.isEmpty) = true; rw [hw1]; simp
  have kp := backend_propSolve_run (o := ⟨some W, some s⟩) (p := p) (simps := simps) (fuel := fuel) (bad := bad) d ps w.st
  have kp1 := backend_propSolve_run (o := ⟨none, some s1⟩) (p := p1) (simps := simps) (fuel := fuel) (bad := bad1) d.elsewhere ps w1.st
  replace kp := kp.trans (if_pos rfl)
  replace kp1 := kp1.trans (if_pos rfl)
  rw [if_pos (show (!p.wings.isEmpty) = true from hW)] at kp
  rw [if_neg (show ¬ (!p1.wings.isEmpty) = true from hW1)] at kp1
  have hm : ∀ sl ∈ w.st.2.map (·.withCg p.cg), ∀ i, sl.model.geom.Misses ((W.grid.data.get i).rcp) := by
    intro sl hsl i
    obtain ⟨sl0, h1, rfl⟩ := List.mem_map.1 hsl
    obtain ⟨kv, h2, h3⟩ := h.geom sl0 h1
    show sl0.model.geom.Misses _
    rw [h3]
    exact hclear kv h2 _ (List.get_mem _ _)
  have hsl := slots_withCg p.cg h.slots
  rw [hc1] at kp1
  have kp2 : ∀ r, propsSolve simps fuel (some fun i : Fin (sectionsOf (some W)) => (W.grid.data.get i).rcp) (some d) (ps.getD [])
      (w.st.2.map (·.withCg p.cg)) = r →
      (Analyser.backend ⟨some W, some s⟩ p simps fuel bad).propSolve d ps w.st = (r.1, (w.st.1, r.2)) := by
    rintro _ rfl; exact kp
  have kp3 : ∀ r, propsSolve simps fuel none (some (d.elsewhere : AeroDict (Fin 0))) (ps.getD []) (w1.st.2.map (·.withCg p.cg)) = r →
      (Analyser.backend ⟨none, some s1⟩ p1 simps fuel bad1).propSolve d.elsewhere ps w1.st = (r.1, (w1.st.1, r.2)) := by
    rintro _ rfl; exact kp1
  have kw : ∀ (d : AeroDict (Fin (sectionsOf (some W)))) (sl : List (PropSlot (Fin (sectionsOf (some W))))) r,
      llSolve (W.grid.geom p.cg) w.st.1 "linear" (some d) c = r →
      (Analyser.backend ⟨some W, some s⟩ p simps fuel bad).wingSolve d c (w.st.1, sl) = (r.1, (r.2, sl)) := by
    rintro d sl _ rfl; rfl
  have kw0 : ∀ r, llSolve (W.grid.geom p.cg) w0.st.1 "linear" (some d.elsewhere) c = r →
      (Analyser.backend ⟨some W, none⟩ p0 simps fuel bad0).wingSolve d.elsewhere c w0.st = (r.1, (r.2, w0.st.2)) := by
    rintro _ rfl; rw [← hc0]; rfl
  rcases propsSolve_missed (simps := simps) (fuel := fuel) (pts := fun i => (W.grid.data.get i).rcp) ha (ps.getD []) hsl hm with
    ⟨x, x', sl', sl1', q1, q2⟩ | ⟨tot, sl', sl1', q2, q1⟩
  · have g : (Analyser.backend ⟨some W, some s⟩ p simps fuel bad).propSolve d ps w.st = (.error x, (w.st.1, sl')) :=
      kp2 _ q1
    have g1 : (Analyser.backend ⟨none, some s1⟩ p1 simps fuel bad1).propSolve d.elsewhere ps w1.st = (.error x', (w1.st.1, sl1')) :=
      kp3 _ q2
    right
    simp only [g] at e
    simp only [g1] at e1
    exact ⟨⟨x, _, e⟩, Or.inr ⟨x', _, e1⟩⟩
  · have g1 : (Analyser.backend ⟨none, some s1⟩ p1 simps fuel bad1).propSolve d.elsewhere ps w1.st = (.ok (tot, none), (w1.st.1, sl1')) :=
      kp3 _ q2
    simp only [g1] at e1
    rw [if_neg hW1] at e1
    simp only at e0
    rw [if_pos hW0] at e0
    rcases q1 with ⟨hn, x, q1⟩ | ⟨V, rho, u, hV, hr, hu, q1, q3, q4⟩
    · have g : (Analyser.backend ⟨some W, some s⟩ p simps fuel bad).propSolve d ps w.st = (.error x, (w.st.1, sl')) :=
      kp2 _ q1
      right
      simp only [g] at e
      refine ⟨⟨x, _, e⟩, Or.inl ?_⟩
      have ha0 : arrOf (W.grid.geom p.cg) (d.elsewhere : AeroDict (Fin (sectionsOf (some W)))) = .error .runtime := by
        unfold arrOf
        simp only [AeroDict.elsewhere]
        rcases hn with hn | hn
        · rw [hn]
        · rw [hn]; cases d.Vmag <;> rfl
      have k' : llSolve (W.grid.geom p.cg) w0.st.1 "linear" (some d.elsewhere) c = (.error .runtime, w0.st.1) :=
        llSolve_noArr (W.grid.geom p.cg) hd0 ha0 c
      simp only [kw0 _ k'] at e0
      exact ⟨_, _, e0⟩
    · have g : (Analyser.backend ⟨some W, some s⟩ p simps fuel bad).propSolve d ps w.st =
          (.ok (tot, some fun _ => (rho, V • u)), (w.st.1, sl')) :=
      kp2 _ q1
      have hd' : ({ d with localState := some fun _ => (rho, V • u) } : AeroDict (Fin (sectionsOf (some W)))).truthy = true := by
        simp [AeroDict.truthy, hV]
      obtain ⟨l1, l2⟩ := llSolve_alike (W.grid.geom p.cg) (st := w.st.1) (st0 := w0.st.1) hd' hd0
        (arrOf_freestream (W.grid.geom p.cg) hV hr hu) h.ctrl c
      simp only [g] at e
      rw [if_pos hW] at e
      simp only [Option.some_or] at e
      rcases hll0 : llSolve (W.grid.geom p.cg) w0.st.1 "linear" (some (d.elsewhere : AeroDict (Fin (sectionsOf (some W))))) c with ⟨r0', st0'⟩
      have g3 := kw0 _ hll0
      simp only [g3] at e0
      replace l1 : r0' = _ := (congrArg Prod.fst hll0).symm.trans l1
      replace l2 : st0'.ctrl = _ := (congrArg (fun x => x.2.ctrl) hll0).symm.trans l2
      rcases hll : llSolve (W.grid.geom p.cg) w.st.1 "linear" (some { d with localState := some fun _ => (rho, V • u) }) c with ⟨x | R, st'⟩
      · have g2 : (Analyser.backend ⟨some W, some s⟩ p simps fuel bad).wingSolve { d with localState := some fun _ => (rho, V • u) } c
            (w.st.1, sl') = (.error x, (st', sl')) := kw _ _ _ hll
        replace l1 : r0' = .error x := l1.trans (congrArg Prod.fst hll)
        subst l1
        split at e
        · rename_i R' st2 heq
          have := heq.symm.trans g2
          cases this
        · exact Or.inr ⟨⟨_, _, e⟩, Or.inl ⟨_, _, e0⟩⟩
      · have g2 : (Analyser.backend ⟨some W, some s⟩ p simps fuel bad).wingSolve { d with localState := some fun _ => (rho, V • u) } c
            (w.st.1, sl') = (.ok R, (st', sl')) := kw _ _ _ hll
        replace l1 : r0' = .ok R := l1.trans (congrArg Prod.fst hll)
        replace l2 : st0'.ctrl = st'.ctrl := l2.trans (congrArg (fun x => x.2.ctrl) hll)
        subst l1
        split at e
        swap
        · rename_i R' st2 heq
          have := heq.symm.trans g2
          cases this
        rename_i R' st2 heq
        have := heq.symm.trans g2
        cases this
        refine Or.inl ⟨_, _, _, _, _, _, e, e0, e1, ?_, l2, q3, ?_⟩
        · simp [totalOf, Loads.add, Loads.zero]
        · intro sl hsl'
          have : sl.model ∈ sl'.map PropSlot.model := List.mem_map.2 ⟨sl, hsl', rfl⟩
          rw [q4] at this
          obtain ⟨y, hy, hy'⟩ := List.mem_map.1 this
          obtain ⟨z, hz, rfl⟩ := List.mem_map.1 hy
          rw [← hy']
          exact h.geom z hz

/-- calls of `solve`, one after the other -/
theorem solves_apart (hw : p.wings ≠ []) (hq : p.props ≠ []) (hw0 : p0.wings ≠ []) (hq0 : p0.props = []) (hw1 : p1.wings = [])
    (hq1 : p1.props ≠ []) (hc0 : p0.cg = p.cg) (hc1 : p1.cg = p.cg)
    (hclear : ∀ kv ∈ p.props, ∀ x ∈ W.grid.data, kv.2.Misses x.rcp) : ∀ (calls : List (SolveArgs (Fin (sectionsOf (some W))))),
    (∀ a ∈ calls, (a.aero.elsewhere : AeroDict (Fin 0)).truthy = true) →
    ∀ (w : World (Analyser.backend ⟨some W, some s⟩ p simps fuel bad)) (w0 : World (Analyser.backend ⟨some W, none⟩ p0 simps fuel bad0))
      (w1 : World (Analyser.backend ⟨none, some s1⟩ p1 simps fuel bad1)), Parts p w.st w0.st w1.st → ∀ Ts,
    (Analyser.solves ⟨some W, some s⟩ p simps fuel bad w calls = .ok Ts ↔
      ∃ Ts0 Ts1, Analyser.solves ⟨some W, none⟩ p0 simps fuel bad0 w0 (calls.map SolveArgs.elsewhere) = .ok Ts0 ∧
        Analyser.solves ⟨none, some s1⟩ p1 simps fuel bad1 w1 (calls.map SolveArgs.elsewhere) = .ok Ts1 ∧ Ts = List.zipWith Loads.add Ts1 Ts0) := by
  intro calls
  induction calls with
  | nil =>
    intro _ w w0 w1 _ Ts
    simp only [Analyser.solves, List.map_nil, Except.ok.injEq]
    constructor
    · rintro rfl; exact ⟨[], [], rfl, rfl, rfl⟩
    · rintro ⟨_, _, rfl, rfl, rfl⟩; rfl
  | cons a calls ih =>
    intro ha w w0 w1 h Ts
    have k := solve_apart (simps := simps) (fuel := fuel) (bad := bad) (bad0 := bad0) (bad1 := bad1) hw hq hw0 hq0 hw1 hq1 hc0 hc1 hclear a
      (ha a List.mem_cons_self) w w0 w1 h
    simp only at k
    simp only [List.map_cons]
    rcases k with ⟨T, w', T0, w0', T1, w1', k, k0, k1, rfl, hP⟩ | ⟨⟨x, w', k⟩, k01⟩
    · have i := ih (fun b hb => ha b (List.mem_cons_of_mem _ hb)) w' w0' w1' hP
      have j := solves_cons_ok (o := ⟨some W, some s⟩) (calls := calls) k Ts
      have j0 : ∀ Ts0, _ ↔ _ := solves_cons_ok (o := ⟨some W, none⟩) (a := a.elsewhere) (calls := calls.map SolveArgs.elsewhere) k0
      have j1 : ∀ Ts1, _ ↔ _ := solves_cons_ok (o := ⟨none, some s1⟩) (a := a.elsewhere) (calls := calls.map SolveArgs.elsewhere) k1
      refine j.trans ?_
      constructor
      · rintro ⟨Ts', h, rfl⟩
        obtain ⟨Ts0, Ts1, h0, h1, rfl⟩ := (i Ts').1 h
        exact ⟨T0 :: Ts0, T1 :: Ts1, (j0 _).2 ⟨Ts0, h0, rfl⟩, (j1 _).2 ⟨Ts1, h1, rfl⟩, rfl⟩
      · rintro ⟨Ts0, Ts1, h0, h1, rfl⟩
        obtain ⟨Ts0', l0, rfl⟩ := (j0 _).1 h0
        obtain ⟨Ts1', l1, rfl⟩ := (j1 _).1 h1
        exact ⟨_, (i _).2 ⟨Ts0', Ts1', l0, l1, rfl⟩, rfl⟩
    · constructor
      · intro hT; exact absurd hT (solves_cons_error (o := ⟨some W, some s⟩) k Ts)
      · rintro ⟨Ts0, Ts1, h0, h1, rfl⟩
        rcases k01 with ⟨x0, w0', k0⟩ | ⟨x1, w1', k1⟩
        · exact absurd h0 (solves_cons_error (o := ⟨some W, none⟩) (a := a.elsewhere) k0 Ts0)
        · exact absurd h1 (solves_cons_error (o := ⟨none, some s1⟩) (a := a.elsewhere) k1 Ts1)

end

/-- **C147.** An aircraft with wings and propellers, none of whose slipstreams meets a control point of a wing.  A `MachUp` object can be
constructed for the aircraft without the calls about propellers and for the aircraft without the calls about wings.  Calls of `solve`, one
after the other on a new object, succeed if and only if they succeed on new objects for these two aircraft, and then each of the nine
totals is the sum of the totals of the wings alone and of the propellers alone. -/
theorem C147_sum {nm : String} {pos : Option V3} {ops : List PlaneOp} {units : Option (Option String)} {p p0 p1 : Plane} {o : Analyser}
    (hp : p = { built nm pos ops with units }) (hp0 : p0 = { built nm pos (ops.filter fun c => !c.aboutProp) with units })
    (hp1 : p1 = { built nm pos (ops.filter fun c => !c.aboutWing) with units }) (ho : openMachUp table mem p = .ok o)
    (hw : p.wings ≠ []) (hq : p.props ≠ []) (hclear : ∀ kv ∈ p.props, ∀ pts, pointsOf o.wing = some pts → ∀ i, kv.2.Misses (pts i)) :
    openMachUp table mem p0 = .ok ⟨o.wing, none⟩ ∧ ∃ s1, openMachUp table mem p1 = .ok ⟨none, some s1⟩ ∧
      ∀ (simps : List ℝ → List ℝ → ℝ) (fuel : ℕ) (bad bad0 : _) (bad1 : _) (calls : List (SolveArgs (Fin (sectionsOf o.wing)))),
        (∀ a ∈ calls, (a.aero.elsewhere : AeroDict (Fin 0)).truthy = true) → ∀ Ts,
        (o.solves p simps fuel bad (o.fresh p simps fuel bad none none) calls = .ok Ts ↔
          ∃ Ts0 Ts1,
            Analyser.solves ⟨o.wing, none⟩ p0 simps fuel bad0 (Analyser.fresh ⟨o.wing, none⟩ p0 simps fuel bad0 none none)
              (calls.map SolveArgs.elsewhere) = .ok Ts0 ∧
            Analyser.solves ⟨none, some s1⟩ p1 simps fuel bad1 (Analyser.fresh ⟨none, some s1⟩ p1 simps fuel bad1 none none)
              (calls.map SolveArgs.elsewhere) = .ok Ts1 ∧
            Ts = List.zipWith Loads.add Ts1 Ts0) := by
  rw [built_noProps] at hp0
  rw [built_noWings] at hp1
  have g0 : p0 = { p with props := [] } := by rw [hp0, hp]
  have g1 : p1 = { p with wings := [], heap := [] } := by rw [hp1, hp]
  obtain ⟨wing, slots⟩ := o
  obtain ⟨k1, k2⟩ := slots_cases ho
  have k3 : ∃ s : List (PropSlot (Fin (sectionsOf wing))), slots = some s ∧ openProps table mem p (pointsOf wing) = .ok s := by
    rcases k2 with ⟨k2, -⟩ | ⟨-, s, hs, hop⟩
    · exact absurd k2 hq
    · exact ⟨s, hs, hop⟩
  clear k2
  obtain ⟨s, rfl, hop⟩ := k3
  have hsome := (wing_isSome k1).2 hw
  simp only at k1 hsome hclear
  rcases wing with _ | W
  · cases hsome
  refine ⟨?_, ?_⟩
  · unfold openMachUp
    rw [g0, mkWingPart_noProps, k1]
    rfl
  have h1 := openProps_alone table mem (p := p) (p1 := p1) (by rw [g1]) (by rw [g1]) (by rw [g1]) (pointsOf (some W))
    (none : Option (Fin (sectionsOf none) → V3))
  rw [hop] at h1
  have h1 : ∃ s1, openProps table mem p1 (none : Option (Fin (sectionsOf none) → V3)) = .ok s1 ∧ s1 = s.map fun sl =>
      { name := sl.name, model := ⟨sl.model.geom, sl.model.stn, sl.model.motor, none, sl.model.cg, sl.model.units⟩, st := sl.st } :=
    ⟨_, h1, rfl⟩
  obtain ⟨s1, h1, hs1⟩ := h1
  refine ⟨s1, ?_, ?_⟩
  · unfold openMachUp
    have : mkWingPart p1 = .ok none := by unfold mkWingPart; rw [if_pos (by rw [g1])]
    rw [this]
    simp only [bind, Except.bind]
    rw [if_neg (by rw [g1]; exact hq)]
    have e : pointsOf none = (none : Option (Fin (sectionsOf none) → V3)) := rfl
    rw [e, h1]
    rfl
  intro simps fuel bad bad0 bad1 calls hcalls Ts
  refine solves_apart hw hq (by rw [g0]; exact hw) (by rw [g0]) (by rw [g1]) (by rw [g1]; exact hq) (by rw [g0]) (by rw [g1])
    (fun kv hkv x hx => ?_) calls hcalls _ _ _ ⟨rfl, ?_, openProps_geom hop⟩ Ts
  · obtain ⟨i, hi, rfl⟩ := List.getElem_of_mem hx
    exact hclear kv hkv _ rfl ⟨i, hi⟩
  · show List.Forall₂ _ s s1
    rw [hs1, List.forall₂_map_right_iff, List.forall₂_same]
    intro sl _
    refine ⟨rfl, ⟨rfl, ?_, rfl, ?_, rfl, rfl, ?_, rfl, rfl, ?_⟩, rfl⟩
    · simp [moveScl]; rfl
    · funext i; simp [moveScl, Stn.scale]
    · simp [moveScl]
    · simp [moveScl]

/-- C147: a wing with elevons and a propeller one length unit behind its quarter-chord line, and two calls of `solve` -/
example (table : String → ℝ → ℝ) (mem : String → ℕ → ℕ → Option ℝ) (simps : List ℝ → List ℝ → ℝ) (fuel : ℕ) (p0 p1 : Plane)
    (hp0 : p0 = { built "craft" none (craftOps.filter fun c => !c.aboutProp) with units := some none })
    (hp1 : p1 = { built "craft" none (craftOps.filter fun c => !c.aboutWing) with units := some none }) :
    ∃ o : Analyser, openMachUp table mem craft = .ok o ∧ sectionsOf o.wing = 2 ∧
      ∃ o0 o1 : Analyser, openMachUp table mem p0 = .ok o0 ∧ openMachUp table mem p1 = .ok o1 ∧
        ∀ bad bad0 bad1 T T',
          o.solves craft simps fuel bad (o.fresh craft simps fuel bad none none)
              [⟨{ Vmag := some 10, rho := some 1, alpha := some 3 }, none, some [("rot_per_sec", .num 30)]⟩,
                ⟨{ Vmag := some 20, rho := some 1, beta := some 5 }, some { elevator := some 2 }, some [("J", .num 0.5)]⟩] = .ok [T, T'] ↔
          ∃ T0 T0' T1 T1',
            o0.solves p0 simps fuel bad0 (o0.fresh p0 simps fuel bad0 none none)
              [⟨{ Vmag := some 10, rho := some 1, alpha := some 3 }, none, some [("rot_per_sec", .num 30)]⟩,
                ⟨{ Vmag := some 20, rho := some 1, beta := some 5 }, some { elevator := some 2 }, some [("J", .num 0.5)]⟩] = .ok [T0, T0'] ∧
            o1.solves p1 simps fuel bad1 (o1.fresh p1 simps fuel bad1 none none)
              [⟨{ Vmag := some 10, rho := some 1, alpha := some 3 }, none, some [("rot_per_sec", .num 30)]⟩,
                ⟨{ Vmag := some 20, rho := some 1, beta := some 5 }, some { elevator := some 2 }, some [("J", .num 0.5)]⟩] = .ok [T1, T1'] ∧
            T = T1.add T0 ∧ T' = T1'.add T0' := by
  obtain ⟨g, M, ⟨a, b, hab, ha, hb⟩, ho⟩ := craft_open_data table mem
  have hx : ∀ x ∈ g.data, x.rcp.x = 0 := by
    intro x hx
    rw [hab] at hx
    rcases List.mem_cons.1 hx with rfl | hx
    · rw [ha]; rfl
    · rcases List.mem_cons.1 hx with rfl | hx
      · rw [hb]; rfl
      · cases hx
  obtain ⟨h0, s1, h1, h⟩ := C147_sum (nm := "craft") (pos := none) (ops := craftOps) (units := some none) (p := craft) rfl hp0 hp1 ho
    (by intro h; cases h) (by rw [craft_props]; simp)
    (by
      intro kv hkv pts hpts i
      rw [craft_props] at hkv
      rcases List.mem_singleton.1 hkv with rfl
      cases hpts
      refine ⟨_, axisOf _, .inl ?_⟩
      have : (g.data.get i).rcp.x = 0 := hx _ (List.getElem_mem i.2)
      show 0 ≤ dot ((g.data.get i).rcp - demoProp.position) (propForward demoProp)
      simp only [propForward, demoProp, rad, dot, sub_x, this]
      norm_num)
  refine ⟨_, ho, by show g.data.length = 2; rw [hab]; rfl, _, _, h0, h1, fun bad bad0 bad1 T T' => ?_⟩
  refine (h simps fuel bad bad0 bad1 _ (by
    intro a ha
    rcases List.mem_cons.1 ha with rfl | ha
    · rfl
    · rcases List.mem_singleton.1 ha with rfl
      rfl) _).trans ?_
  constructor
  · rintro ⟨Ts0, Ts1, k0, k1, k⟩
    obtain ⟨T0, T0', rfl⟩ := List.length_eq_two.1 (solves_length k0)
    obtain ⟨T1, T1', rfl⟩ := List.length_eq_two.1 (solves_length k1)
    cases k
    exact ⟨_, _, _, _, k0, k1, rfl, rfl⟩
  · rintro ⟨T0, T0', T1, T1', k0, k1, rfl, rfl⟩
    exact ⟨_, _, k0, k1, rfl⟩

end Verif
