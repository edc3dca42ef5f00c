import Verif.Lemmas.Again
import Verif.Thm.PropReads
import Verif.Thm.PropOrder

/-!
# Reproducible programs (C87)

What `C87_solve_partial` says of one analysis of the propellers holds of a whole program: an aircraft is given to `MachUp` and analysed.
-/

namespace Verif
open V3 Act

namespace Again
variable {ι : Type} {B : Backend ι} {R : B.σ → B.σ → Prop} {ps : Option B.π}

theorem any (hF : Solvers B R ps) (cg : V3) {a : Analysis} (ha : a.NoSearch) : Again (Alongside (B := B) (B' := B) R) (perform ps cg a) := by
  rcases ha with ha | ⟨L, M, e, f, rfl⟩
  · cases a
    case solve f => exact bind (solveFile hF f) fun _ => pure _
    case stability => exact bind (stability hF) fun _ => pure _
    case damping => exact bind (damping hF) fun _ => pure _
    case control => exact bind (control hF) fun _ => pure _
    case derivatives f => exact bind (all hF f) fun _ => pure _
    case stallOnset f n => exact ha.elim
    case stallAirspeed W e f n k => exact ha.elim
    case targetLift L e f => exact ha.elim
    case pitchTrim L M e f => exact ha.elim
    case aeroCenter f => exact bind (center hF cg f) fun _ => pure _
  · exact bind (trim hF L M e f) fun _ => pure _

theorem calls (hF : ∀ ps, Solvers B R ps) (cg : V3) {w : World B} {cs : List (AnyCall B)} {as : List Answer} (h : Answers cg w cs as)
    (hc : ∀ c ∈ cs, c.what.NoSearch) : ∀ {w' : World B}, R w.st w'.st → w'.files = w.files →
      Answers cg w' cs as ∧ (afterCalls cg w' cs).files = (afterCalls cg w cs).files := by
  induction h with
  | nil w => intro w' _ hf; exact ⟨.nil _, hf⟩
  | @cons w w1 c a cs as e _ ih =>
    intro w' hr hf
    obtain ⟨w1', k1, k2⟩ := any (hF c.ps) cg (hc c (by simp)) { w with aero := c.aero, ctrl := c.ctrl } { w' with aero := c.aero, ctrl := c.ctrl }
      ⟨rfl, rfl, hf, hr⟩ a w1 e
    have k1' : c.run cg w' = (.ok a, w1') := k1
    obtain ⟨i1, i2⟩ := ih (fun c h => hc c (List.mem_cons_of_mem _ h)) k2.st k2.files
    refine ⟨.cons k1' i1, ?_⟩
    unfold afterCalls at i2 ⊢
    rw [List.foldl_cons, List.foldl_cons, k1', e]
    exact i2

end Again

/-- the two solver objects of two processes -/
def SameProcess {n : ℕ} (s s' : LLState (Fin n) × List (PropSlot (Fin n))) : Prop := s'.1 = s.1 ∧ List.Forall₂ SameButMemory s.2 s'.2

theorem again_solvers (o : Analyser) (wings props : Bool) (cg : V3) (simps : List ℝ → List ℝ → ℝ) (fuel : ℕ)
    (bad : Act (LLState (Fin (sectionsOf o.wing)) × List (PropSlot (Fin (sectionsOf o.wing)))) (Option Loads)) (ps : Option PropDict) :
    Again.Solvers (o.backendOf wings props cg simps fuel bad) SameProcess ps where
  propSolve := by
    rintro d ⟨l, sls⟩ ⟨l', sls'⟩ ⟨h1, h2⟩ x s1 e
    simp only at h1 h2
    subst h1
    unfold Analyser.backendOf at e ⊢
    simp only at e ⊢
    by_cases ho : o.slots.isSome = true
    · rw [if_pos ho] at e ⊢
      have h3 : List.Forall₂ SameButMemory (sls.map (·.withCg cg)) (sls'.map (·.withCg cg)) := by
        rw [List.forall₂_map_left_iff, List.forall₂_map_right_iff]
        exact h2.imp fun a b hab => ⟨hab.name, by simp only [PropSlot.withCg, hab.model], hab.ei, hab.rps, hab.tick, hab.out, hab.mem⟩
      rcases hq : propsSolve simps fuel (if wings = true then pointsOf o.wing else none) (some d) (ps.getD []) (sls.map (·.withCg cg)) with ⟨er | r, sl1⟩
      · rw [hq] at e; cases e
      · rw [hq] at e
        obtain ⟨sl1', k1, k2⟩ := C87_solve_partial h3 hq
        rw [k1]
        cases e
        exact ⟨_, rfl, rfl, k2⟩
    · rw [if_neg ho] at e
      cases e
  wingSolve := by
    rintro d c ⟨l, sls⟩ ⟨l', sls'⟩ ⟨h1, h2⟩ x s1 e
    simp only at h1 h2
    subst h1
    unfold Analyser.backendOf at e ⊢
    simp only at e ⊢
    split_ifs at e ⊢ with ho
    · rcases hq : llSolve (geomOf cg o.wing) l' "linear" (some d) c with ⟨r, ll⟩
      rw [hq] at e
      cases e
      exact ⟨_, rfl, rfl, h2⟩
    · cases e

theorem openProps_mem {ι : Type} {table : String → ℝ → ℝ} {mem mem' : String → ℕ → ℕ → Option ℝ} {p : Plane} {pts : Option (ι → V3)}
    (hm : ∀ nm, AgreesWhereNumber (mem nm) (mem' nm)) {s : List (PropSlot ι)} (h : openProps table mem p pts = .ok s) :
    ∃ s', openProps table mem' p pts = .ok s' ∧ List.Forall₂ SameButMemory s s' := by
  unfold openProps at h ⊢
  cases hq : ((p.props.map Prod.snd).foldlM (fun (d : List (String × PropM ι)) q => do
    let u ← p.getUnits
    let m ← mkPropM table q p.cg u pts
    return dictSet d q.name m) [] : Except PyErr (List (String × PropM ι))) with
  | error e => rw [hq] at h; cases h
  | ok ms =>
    rw [hq] at h
    cases h
    refine ⟨_, rfl, ?_⟩
    rw [List.forall₂_map_left_iff, List.forall₂_map_right_iff]
    exact List.forall₂_same.2 fun kv _ => ⟨rfl, rfl, rfl, rfl, rfl, rfl, hm kv.1⟩

/-- **C87, the part that holds, for whole programs.**  A `MachUp` object is constructed for an aircraft and a sequence of analyses is made,
all of which succeed.  Then in every other process, in which the uninitialised memory of each propeller holds the same numbers wherever it
held numbers in the first one, the object can be constructed, and the same analyses succeed with the same answers and leave the same
files.  (Missing: `stall_onset`, `stall_airspeed` and `target_lift`, which go on when a solve on the way has a result that is not a
number.) -/
theorem C87_program_partial (table : String → ℝ → ℝ) (mem mem' : String → ℕ → ℕ → Option ℝ) (hm : ∀ nm, AgreesWhereNumber (mem nm) (mem' nm))
    (simps : List ℝ → List ℝ → ℝ) (fuel : ℕ) (p : Plane) (o : Analyser) (ho : openMachUp table mem p = .ok o) :
    ∃ sl' : Option (List (PropSlot (Fin (sectionsOf o.wing)))), openMachUp table mem' p = .ok ⟨o.wing, sl'⟩ ∧
      ∀ (bad : _) (calls : List (Analysis × Option (AeroDict (Fin (sectionsOf o.wing))) × Option CtrlDict × Option PropDict)),
        (∀ c ∈ calls, c.1.NoSearch) → ∀ as : List Answer,
        Answers p.cg (o.fresh p simps fuel bad none none) (calls.map fun c => ⟨c.1, c.2.1, c.2.2.1, c.2.2.2⟩) as →
          Answers p.cg (Analyser.fresh ⟨o.wing, sl'⟩ p simps fuel bad none none) (calls.map fun c => ⟨c.1, c.2.1, c.2.2.1, c.2.2.2⟩) as ∧
            (afterCalls p.cg (Analyser.fresh ⟨o.wing, sl'⟩ p simps fuel bad none none) (calls.map fun c => ⟨c.1, c.2.1, c.2.2.1, c.2.2.2⟩)).files =
              (afterCalls p.cg (o.fresh p simps fuel bad none none) (calls.map fun c => ⟨c.1, c.2.1, c.2.2.1, c.2.2.2⟩)).files := by
  have key : ∀ (w : Option WingPart) (s s' : Option (List (PropSlot (Fin (sectionsOf w))))), s'.isSome = s.isSome →
      List.Forall₂ SameButMemory (s.getD []) (s'.getD []) →
      ∀ (bad : _) (calls : List (Analysis × Option (AeroDict (Fin (sectionsOf w))) × Option CtrlDict × Option PropDict)),
        (∀ c ∈ calls, c.1.NoSearch) → ∀ as : List Answer,
        Answers p.cg (Analyser.fresh ⟨w, s⟩ p simps fuel bad none none) (calls.map fun c => ⟨c.1, c.2.1, c.2.2.1, c.2.2.2⟩) as →
          Answers p.cg (Analyser.fresh ⟨w, s'⟩ p simps fuel bad none none) (calls.map fun c => ⟨c.1, c.2.1, c.2.2.1, c.2.2.2⟩) as ∧
            (afterCalls p.cg (Analyser.fresh ⟨w, s'⟩ p simps fuel bad none none) (calls.map fun c => ⟨c.1, c.2.1, c.2.2.1, c.2.2.2⟩)).files =
              (afterCalls p.cg (Analyser.fresh ⟨w, s⟩ p simps fuel bad none none) (calls.map fun c => ⟨c.1, c.2.1, c.2.2.1, c.2.2.2⟩)).files := by
    intro w s s' hs hss bad calls hc as h
    have hB : Analyser.backend ⟨w, s'⟩ p simps fuel bad = Analyser.backend ⟨w, s⟩ p simps fuel bad := by
      unfold Analyser.backend Analyser.backendOf
      simp only [hs]
    have hc' : ∀ c ∈ calls.map (fun c => (⟨c.1, c.2.1, c.2.2.1, c.2.2.2⟩ : AnyCall (Analyser.backend ⟨w, s⟩ p simps fuel bad))), c.what.NoSearch := by
      intro c h
      obtain ⟨x, hx, rfl⟩ := List.mem_map.1 h
      exact hc x hx
    cases s with
    | none =>
      cases s' with
      | none => exact ⟨h, rfl⟩
      | some _ => simp at hs
    | some s =>
      cases s' with
      | none => simp at hs
      | some s' =>
        exact Again.calls (w' := Analyser.fresh ⟨w, some s'⟩ p simps fuel bad none none) (R := SameProcess)
          (fun ps => again_solvers ⟨w, some s⟩ _ _ _ simps fuel bad ps) p.cg h hc' ⟨rfl, hss⟩ rfl
  unfold openMachUp at ho ⊢
  cases hw : mkWingPart p with
  | error e => rw [hw] at ho; cases ho
  | ok w =>
    rw [hw] at ho
    simp only [except_ok_bind] at ho ⊢
    by_cases hp : p.props = []
    · rw [if_pos hp] at ho ⊢
      cases ho
      exact ⟨none, rfl, key _ _ _ rfl .nil⟩
    · rw [if_neg hp] at ho ⊢
      cases hs : openProps table mem p (pointsOf w) with
      | error e => rw [hs] at ho; cases ho
      | ok s =>
        rw [hs] at ho
        cases ho
        obtain ⟨s', k1, k2⟩ := openProps_mem hm hs
        rw [k1]
        exact ⟨some s', rfl, key _ _ _ rfl k2⟩

/-- `solve` without a file -/
theorem muSolveFile_of_muSolve {ι : Type} {B : Backend ι} {ps : Option B.π} {w w' : World B} {T : Loads} (ha : aeroGiven w = true)
    (h : muSolve ps w = (.ok T, w')) : muSolveFile ps none w = (.ok T, w') := by
  unfold muSolve at h
  rw [get_bind, if_pos ha] at h
  unfold muSolveFile
  rw [get_bind, if_pos ha]
  obtain ⟨r, w1, e1, e2⟩ := bind_ok.1 h
  rw [bind_of_ok e1]
  exact e2

/-- the aircraft with two propellers: there are memory contents, `nan` in all but two arrays of each propeller, with which the object can be
constructed and the first `solve` succeeds -/
example : ∃ (mem : String → ℕ → ℕ → Option ℝ) (o : Analyser), (∀ nm k i, k ≠ 0 → k ≠ 2 → mem nm k i = none) ∧
    openMachUp (fun _ _ => 0) mem pair = .ok o ∧ ∀ bad, ∃ T,
      Answers pair.cg (o.fresh pair (fun _ _ => 1) 1 bad none none)
        [⟨.solve none, some { Vmag := some 10, rho := some 1 }, none, some [("J", .num 0.5)]⟩] [.loads T] := by
  obtain ⟨M, hM, -, hd, -⟩ := demo_ok (ι := Fin (sectionsOf none)) (fun _ _ => 0) 0 none none
  obtain ⟨mem, hk, hr⟩ := demo_run_reads hM 10 1 (J := 0.5) (by norm_num) (by norm_num) (fun _ => 1) _ 0 [("J", .num 0.5)]
    (fun s => set_J M 10 s (has_singleton _ _) (by norm_num) (by norm_num)) 15
  obtain ⟨o, s1, r1, -⟩ := hr (fun _ _ => 1) 0
  obtain ⟨a, h1, h2⟩ := pair_run (fun _ _ => 1) hM r1 r1
  refine ⟨_, a, fun nm k i h0 h2 => ?_, h1, fun bad => ?_⟩
  · rw [ite_self]
    cases e : mem k i with
    | none => rfl
    | some x => rcases hk k i x e with h | h <;> omega
  · obtain ⟨T, w', h, -⟩ := h2 bad
    refine ⟨T, .cons (w' := w') ?_ (.nil _)⟩
    exact (bind_of_ok (f := fun r => pure (Answer.loads r)) (muSolveFile_of_muSolve rfl h)).trans rfl

end Verif
