import Verif.Lemmas.PropReads
import Verif.Spec.PropReads
import Verif.Thm.PropMemory

/-!
# Reproducible analyses of propellers (C87)

An analysis that succeeds takes from uninitialised memory only entries that are numbers.  So it has the same result with every
other memory that holds the same numbers in these entries, whatever the other entries are.
-/

namespace Verif
open V3 Act

variable {ι : Type}

/-- **C87, the part that holds, for one propeller.**  An analysis that succeeds with memory contents `mem` has the same result, and leaves
the propeller in the same state, with all memory contents that agree with `mem` where `mem` holds a number.  In particular an analysis
that succeeds although all memory holds `nan` does not depend on memory at all. -/
theorem C87_reproducible_partial {M : PropM ι} {simps : List ℝ → List ℝ → ℝ} {fuel : ℕ} {aero : Option (AeroDict ι)} {s : PropDict}
    {st st1 : PropSt} {mem mem' : ℕ → ℕ → Option ℝ} {o : PropOut} (hm : AgreesWhereNumber mem mem')
    (h : runProp simps fuel M aero s { st with mem } = (.ok o, st1)) :
    runProp simps fuel M aero s { st with mem := mem' } = (.ok o, { st1 with mem := mem' }) :=
  (memReads_runProp (m' := mem') M simps fuel aero s { st with mem } o st1 hm h).1

/-- the first analysis of the demonstration propeller: two arrays decide, the rest of the memory may hold anything -/
example {table : String → ℝ → ℝ} {cg : V3} {units : Option String} {pts : Option (ι → V3)} {M : PropM ι}
    (hM : mkPropM table demoProp cg units pts = .ok M) (simps : List ℝ → List ℝ → ℝ) (fuel : ℕ) :
    ∃ mem : ℕ → ℕ → Option ℝ, (∀ k i, k ≠ 0 → k ≠ 2 → mem k i = none) ∧ ∃ o : PropOut,
      ∀ mem', (∀ i, mem' 0 i = mem 0 i) → (∀ i, mem' 2 i = mem 2 i) → ∃ st1,
        runProp simps (fuel + 1) M (some { Vmag := some 10, rho := some 0.002 }) [("J", .num 0.5)] { mem := mem' } = (.ok o, st1) := by
  have hset : ∀ s : PropSt, setPropDict M 10 [("J", .num 0.5)] s = (.ok (.atJ 0.5), { s with rps := 10 / (M.d * 0.5) }) :=
    fun s => set_J M 10 s (has_singleton _ _) (by norm_num) (by norm_num)
  obtain ⟨mem, hr, h1⟩ := demo_run_reads hM 10 0.002 (J := 0.5) (by norm_num) (by norm_num) (fun _ => 1) (10 / (M.d * 0.5)) 0 _ hset 15
  obtain ⟨o, st1, h2, -⟩ := h1 simps fuel
  refine ⟨mem, fun k i h0 h2 => ?_, o, fun mem' e0 e2 => ⟨_, C87_reproducible_partial (st := { mem := mem' }) (mem := mem) (fun k i x hx => ?_) h2⟩⟩
  · cases e : mem k i with
    | none => rfl
    | some x => rcases hr k i x e with h | h <;> omega
  · rcases hr k i x hx with h | h
    · subst h; rw [e0]; exact hx
    · subst h; rw [show 0 + 2 = 2 from rfl, e2]; exact hx

theorem runProp_sameButMemory {a b : PropSlot ι} (hab : SameButMemory a b) {simps : List ℝ → List ℝ → ℝ} {fuel : ℕ}
    {aero : Option (AeroDict ι)} {s : PropDict} {st1 : PropSt} {o : PropOut} (h : runProp simps fuel a.model aero s a.st = (.ok o, st1)) :
    runProp simps fuel b.model aero s b.st = (.ok o, { st1 with mem := b.st.mem }) ∧ st1.mem = a.st.mem := by
  obtain ⟨e1, e2⟩ := memReads_runProp (m' := b.st.mem) a.model simps fuel aero s a.st o st1 hab.mem h
  have : b.st = { a.st with mem := b.st.mem } := by
    rcases hb : b.st with ⟨x1, x2, x3, x4⟩
    have h1 := hab.ei; have h2 := hab.rps; have h3 := hab.tick
    rw [hb] at h1 h2 h3
    simp only at h1 h2 h3
    subst h1 h2 h3
    rfl
  rw [hab.model, this]
  exact ⟨e1, e2⟩

theorem propsLoop_sameButMemory {simps : List ℝ → List ℝ → ℝ} {fuel : ℕ} {aero : Option (AeroDict ι)} {ps : PropDict}
    {sls sls' : List (PropSlot ι)} (h : List.Forall₂ SameButMemory sls sls') :
    ∀ {acc : PropAcc} {r : PropAcc × List PropOut} {sls1 : List (PropSlot ι)},
      propsLoop simps fuel aero ps sls acc = (.ok r, sls1) →
      ∃ sls1', propsLoop simps fuel aero ps sls' acc = (.ok r, sls1') ∧ List.Forall₂ SameButMemory sls1 sls1' := by
  induction h with
  | nil =>
    intro acc r sls1 e
    unfold propsLoop at e ⊢
    cases e
    exact ⟨_, rfl, .nil⟩
  | @cons a b l l' hab hl ih =>
    intro acc r sls1 e
    unfold propsLoop at e ⊢
    rw [hab.name]
    cases hps : localPS ps a.name with
    | error x => rw [hps] at e; cases e
    | ok s =>
      rw [hps] at e
      simp only at e ⊢
      rcases hrun : runProp simps fuel a.model aero s a.st with ⟨x | o, st⟩
      · rw [hrun] at e; cases e
      · rw [hrun] at e
        obtain ⟨e1, e2⟩ := runProp_sameButMemory hab hrun
        rw [e1]
        simp only at e ⊢
        rcases hrest : propsLoop simps fuel aero ps l { F := acc.F + o.F, M := acc.M + o.M, last := some (o.T, o.l) } with ⟨x | ⟨acc1, outs⟩, l1⟩
        · rw [hrest] at e; cases e
        · rw [hrest] at e
          obtain ⟨l1', e3, e4⟩ := ih hrest
          rw [e3]
          cases e
          refine ⟨_, rfl, .cons ⟨rfl, hab.model, rfl, rfl, rfl, rfl, ?_⟩ e4⟩
          show AgreesWhereNumber st.mem b.st.mem
          rw [e2]
          exact hab.mem

theorem models_sameButMemory {sls sls' : List (PropSlot ι)} (h : List.Forall₂ SameButMemory sls sls') :
    sls'.map PropSlot.model = sls.map PropSlot.model := by
  induction h with
  | nil => rfl
  | cons hab _ ih => rw [List.map_cons, List.map_cons, ih, hab.model]

theorem propsForces_sameButMemory {simps : List ℝ → List ℝ → ℝ} {fuel : ℕ} {aero : Option (AeroDict ι)} {ps : PropDict}
    {sls sls' : List (PropSlot ι)} (h : List.Forall₂ SameButMemory sls sls') {r : PropTotals × List PropOut} {sls1 : List (PropSlot ι)}
    (e : propsForces simps fuel aero ps sls = (.ok r, sls1)) :
    ∃ sls1', propsForces simps fuel aero ps sls' = (.ok r, sls1') ∧ List.Forall₂ SameButMemory sls1 sls1' := by
  unfold propsForces at e ⊢
  rcases hl : propsLoop simps fuel aero ps sls {} with ⟨x | ⟨acc, outs⟩, l1⟩
  · rw [hl] at e; cases e
  · rw [hl] at e
    obtain ⟨l1', e1, e2⟩ := propsLoop_sameButMemory h hl
    rw [e1]
    cases aero with
    | none => cases e
    | some d =>
      simp only at e ⊢
      cases hf : freestream 1 (d.alpha.getD 0) (d.beta.getD 0) with
      | none => rw [hf] at e; cases e
      | some u =>
        rw [hf] at e
        simp only at e ⊢
        cases hr : rotateForces u acc.F with
        | error x => rw [hr] at e; cases e
        | ok t =>
          cases ht : acc.last with
          | none => rw [hr, ht] at e; cases e
          | some t' =>
            rw [hr, ht] at e
            cases e
            exact ⟨_, rfl, e2⟩

/-- **C87, the part that holds, for all propellers of an aircraft.**  If the analysis of the propellers succeeds, then in every other
process in which the propellers are in the same states and the memory holds the same numbers it succeeds with the same forces and the
same velocities at the wing, and the propellers are again in the same states: further analyses agree as well. -/
theorem C87_solve_partial {simps : List ℝ → List ℝ → ℝ} {fuel : ℕ} {pts : Option (ι → V3)} {aero : Option (AeroDict ι)} {ps : PropDict}
    {sls sls' : List (PropSlot ι)} (h : List.Forall₂ SameButMemory sls sls') {r : PropTotals × Option (ι → ℝ × V3)}
    {sls1 : List (PropSlot ι)} (e : propsSolve simps fuel pts aero ps sls = (.ok r, sls1)) :
    ∃ sls1', propsSolve simps fuel pts aero ps sls' = (.ok r, sls1') ∧ List.Forall₂ SameButMemory sls1 sls1' := by
  classical
  unfold propsSolve at e ⊢
  obtain ⟨⟨tot, outs⟩, l1, e1, e2⟩ := bind_ok.1 e
  obtain ⟨l1', f1, f2⟩ := propsForces_sameButMemory h e1
  rw [bind_of_ok f1]
  cases pts with
  | none =>
    simp only [pure_run, Prod.mk.injEq, Except.ok.injEq] at e2 ⊢
    obtain ⟨rfl, rfl⟩ := e2
    exact ⟨_, ⟨rfl, rfl⟩, f2⟩
  | some p =>
    simp only at e2 ⊢
    obtain ⟨fl, l2, g1, g2⟩ := bind_ok.1 e2
    obtain ⟨g3, g4⟩ := lift_eq_ok.1 g1
    subst g4
    rw [g3, lift_ok_bind, get_bind, models_sameButMemory f2]
    rw [get_bind] at g2
    split_ifs at g2 ⊢ with hv
    · simp only [pure_run, Prod.mk.injEq, Except.ok.injEq] at g2 ⊢
      obtain ⟨rfl, rfl⟩ := g2
      exact ⟨_, ⟨rfl, rfl⟩, f2⟩
    · cases g2

/-- the first analysis of an aircraft with the demonstration propeller: it succeeds with two arrays of numbers and `nan` elsewhere, so in
every process in which these two arrays hold the same numbers -/
example {table : String → ℝ → ℝ} {M : PropM ι} (hM : mkPropM table demoProp 0 none none = .ok M) (simps : List ℝ → List ℝ → ℝ) :
    ∃ mem : ℕ → ℕ → Option ℝ, (∀ k i, k ≠ 0 → k ≠ 2 → mem k i = none) ∧ ∃ r,
      ∀ mem', (∀ i, mem' 0 i = mem 0 i) → (∀ i, mem' 2 i = mem 2 i) → ∃ sls1,
        propsSolve simps 1 none (some { Vmag := some 10, rho := some 0.002 }) [("J", .num 0.5)] [⟨"p", M, { mem := mem' }, none⟩] =
          (.ok r, sls1) := by
  have hset : ∀ s : PropSt, setPropDict M 10 [("J", .num 0.5)] s = (.ok (.atJ 0.5), { s with rps := 10 / (M.d * 0.5) }) :=
    fun s => set_J M 10 s (has_singleton _ _) (by norm_num) (by norm_num)
  obtain ⟨mem, hr, h1⟩ := demo_run_reads hM 10 0.002 (J := 0.5) (by norm_num) (by norm_num) (fun _ => 1) (10 / (M.d * 0.5)) 0 _ hset 15
  obtain ⟨o, s1, r1, -⟩ := h1 simps 0
  have l1 : localPS [("J", .num 0.5)] "p" = .ok [("J", .num 0.5)] := by
    unfold localPS
    rw [if_neg (by simp)]
    simp [dictGet]
  obtain ⟨⟨rL, rD, rS⟩, hrot⟩ := demo_rotate (0 + o.F)
  have hl : propsLoop simps 1 (some { Vmag := some 10, rho := some 0.002 }) [("J", .num 0.5)] [⟨"p", M, { mem }, none⟩] {} =
      (.ok ({ F := 0 + o.F, M := 0 + o.M, last := some (o.T, o.l) }, [o]), [⟨"p", M, s1, some o⟩]) := by
    have r1' : runProp simps 1 M (some { Vmag := some 10, rho := some 0.002 }) [("J", .num 0.5)] { mem } = (.ok o, s1) := r1
    simp only [propsLoop, l1, r1']
  have hf : ∃ tot, propsForces simps 1 (some { Vmag := some 10, rho := some 0.002 }) [("J", .num 0.5)] [⟨"p", M, { mem }, none⟩] =
      (.ok (tot, [o]), [⟨"p", M, s1, some o⟩]) := by
    unfold propsForces
    simp only [hl, Option.getD_none, freestream_zero, hrot]
    exact ⟨_, rfl⟩
  obtain ⟨tot, hf⟩ := hf
  have hps : propsSolve simps 1 none (some { Vmag := some 10, rho := some 0.002 }) [("J", .num 0.5)] [⟨"p", M, { mem }, none⟩] =
      (.ok (tot, none), [⟨"p", M, s1, some o⟩]) := by
    unfold propsSolve
    rw [bind_of_ok hf]
    rfl
  refine ⟨mem, fun k i h0 h2 => ?_, (tot, none), fun mem' e0 e2 => ?_⟩
  · cases e : mem k i with
    | none => rfl
    | some x => rcases hr k i x e with h | h <;> omega
  · have hm : SameButMemory (⟨"p", M, { mem }, none⟩ : PropSlot ι) ⟨"p", M, { mem := mem' }, none⟩ := by
      refine ⟨rfl, rfl, rfl, rfl, rfl, rfl, fun k i x hx => ?_⟩
      rcases hr k i x hx with h | h
      · subst h; rw [← hx]; exact e0 i
      · subst h; rw [← hx]; exact e2 i
    obtain ⟨sls1, h, -⟩ := C87_solve_partial (.cons hm .nil) hps
    exact ⟨sls1, h⟩

end Verif
