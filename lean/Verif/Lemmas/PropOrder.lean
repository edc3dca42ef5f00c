import Verif.Thm.PropState

/-!
# The propellers in another order

A successful run of all propellers, described without reference to the order in which they are run.
-/

namespace Verif
open V3 Act

theorem perm_lift {α β : Type*} (f : α → β) {L : List α} {l' : List β} (h : (L.map f).Perm l') : ∃ L', L.Perm L' ∧ L'.map f = l' := by
  generalize hl : L.map f = l at h
  induction h generalizing L with
  | nil => exact ⟨[], by simpa using hl, rfl⟩
  | cons x _ ih =>
    rcases L with _ | ⟨a, t⟩
    · cases hl
    · simp only [List.map_cons, List.cons.injEq] at hl
      obtain ⟨L', h1, h2⟩ := ih hl.2
      exact ⟨a :: L', h1.cons a, by simp [h2, hl.1]⟩
  | swap x y l =>
    rcases L with _ | ⟨a, _ | ⟨b, t⟩⟩
    · cases hl
    · cases hl
    · simp only [List.map_cons, List.cons.injEq] at hl
      exact ⟨b :: a :: t, .swap b a t, by simp [hl.1, hl.2.1, hl.2.2]⟩
  | trans _ _ ih1 ih2 =>
    obtain ⟨L1, h1, h2⟩ := ih1 hl
    obtain ⟨L2, h3, h4⟩ := ih2 h2
    exact ⟨L2, h1.trans h3, h4⟩

theorem vsum_perm {l l' : List V3} (h : l.Perm l') : vsum l = vsum l' := by
  unfold vsum
  exact h.foldr_eq' (f := fun (a b : V3) => a + b) (fun x _ y _ z => add_left_comm _ _ _) 0

variable {ι : Type} (simps : List ℝ → List ℝ → ℝ) (fuel : ℕ) (aero : Option (AeroDict ι)) (ps : PropDict)

/-- the run of one propeller -/
def RunsTo (x : PropSlot ι × PropOut × PropSt) : Prop :=
  ∃ s, localPS ps x.1.name = .ok s ∧ runProp simps fuel x.1.model aero s x.1.st = (.ok x.2.1, x.2.2)

/-- the propeller afterwards -/
def afterRun (x : PropSlot ι × PropOut × PropSt) : PropSlot ι := { x.1 with st := x.2.2, out := some x.2.1 }

theorem propsLoop_runs {sls sls' : List (PropSlot ι)} {acc acc' : PropAcc} {outs : List PropOut}
    (h : propsLoop simps fuel aero ps sls acc = (.ok (acc', outs), sls')) :
    ∃ L : List (PropSlot ι × PropOut × PropSt), L.map Prod.fst = sls ∧ (∀ x ∈ L, RunsTo simps fuel aero ps x) ∧
      outs = L.map (·.2.1) ∧ sls' = L.map afterRun := by
  induction sls generalizing acc outs sls' with
  | nil =>
    simp only [propsLoop, Prod.mk.injEq, Except.ok.injEq] at h
    obtain ⟨⟨rfl, rfl⟩, rfl⟩ := h
    exact ⟨[], rfl, by simp, rfl, rfl⟩
  | cons sl rest ih =>
    unfold propsLoop at h
    split at h
    · cases h
    · rename_i s hs
      split at h
      · cases h
      · rename_i o st hr
        split at h
        · rename_i acc2 outs2 rest2 hl
          simp only [Prod.mk.injEq, Except.ok.injEq] at h
          obtain ⟨⟨rfl, rfl⟩, rfl⟩ := h
          obtain ⟨L, i1, i2, i3, i4⟩ := ih hl
          refine ⟨(sl, o, st) :: L, by simp [i1], ?_, by simp [i3], by simp [i4, afterRun]⟩
          intro x hx
          rcases List.mem_cons.1 hx with rfl | hx
          · exact ⟨s, hs, hr⟩
          · exact i2 x hx
        · cases h

theorem propsLoop_of_runs {L : List (PropSlot ι × PropOut × PropSt)} (h : ∀ x ∈ L, RunsTo simps fuel aero ps x) (acc : PropAcc) :
    ∃ acc', propsLoop simps fuel aero ps (L.map Prod.fst) acc = (.ok (acc', L.map (·.2.1)), L.map afterRun) := by
  induction L generalizing acc with
  | nil => exact ⟨acc, rfl⟩
  | cons x t ih =>
    obtain ⟨s, h1, h2⟩ := h x (by simp)
    obtain ⟨acc', h3⟩ := ih (fun y hy => h y (by simp [hy])) { F := acc.F + x.2.1.F, M := acc.M + x.2.1.M, last := some (x.2.1.T, x.2.1.l) }
    refine ⟨acc', ?_⟩
    simp only [List.map_cons, propsLoop, h1, h2, h3, afterRun]

theorem pointVel_perm (fl : PFlow) (p : V3) {l l' : List (PropM ι × PropOut)} (h : l.Perm l') {v : V3} (hv : pointVel fl p l = .ok v) :
    pointVel fl p l' = .ok v := by
  induction h generalizing v with
  | nil => exact hv
  | cons x _ ih =>
    obtain ⟨M, o⟩ := x
    unfold pointVel at hv ⊢
    cases h1 : propVel M fl.V o.n o.c p with
    | error e => rw [h1] at hv; cases hv
    | ok a =>
      rw [h1] at hv
      simp only [bind, Except.bind] at hv ⊢
      split at hv
      · cases hv
      · rename_i w hw
        rw [ih hw]
        exact hv
  | swap x y l =>
    obtain ⟨M, o⟩ := x
    obtain ⟨M', o'⟩ := y
    unfold pointVel at hv ⊢
    unfold pointVel at hv ⊢
    simp only [bind, Except.bind, pure, Except.pure] at hv ⊢
    cases h1 : propVel M fl.V o.n o.c p <;> cases h2 : propVel M' fl.V o'.n o'.c p <;> cases h3 : pointVel fl p l <;>
      rw [h1, h2, h3] at hv <;> simp only [Except.ok.injEq, reduceCtorEq] at hv ⊢
    rw [← hv, add_right_comm]
  | trans _ _ ih1 ih2 => exact ih2 (ih1 hv)

theorem propsForces_perm {sls sls' : List (PropSlot ι)} (hp : sls.Perm sls') {tot : PropTotals} {outs : List PropOut}
    {s2 : List (PropSlot ι)} (h : propsForces simps fuel aero ps sls = (.ok (tot, outs), s2)) :
    ∃ (L L' : List (PropSlot ι × PropOut × PropSt)) (tot' : PropTotals), L.Perm L' ∧ L.map Prod.fst = sls ∧ L'.map Prod.fst = sls' ∧
      (∀ x ∈ L, RunsTo simps fuel aero ps x) ∧ outs = L.map (·.2.1) ∧ s2 = L.map afterRun ∧
      propsForces simps fuel aero ps sls' = (.ok (tot', L'.map (·.2.1)), L'.map afterRun) ∧ tot'.loads = tot.loads := by
  obtain ⟨d, u, acc, rfl, hu, hl, hr, hla, hF, hM⟩ := propsForces_ok h
  obtain ⟨L, rfl, h2, rfl, rfl⟩ := propsLoop_runs simps fuel _ ps hl
  obtain ⟨L', p1, rfl⟩ := perm_lift Prod.fst hp
  obtain ⟨acc', h3⟩ := propsLoop_of_runs simps fuel _ ps (fun x hx => h2 x (p1.symm.subset hx)) {}
  obtain ⟨-, a1, a2, a3, -⟩ := propsLoop_ok hl
  obtain ⟨-, b1, b2, b3, -⟩ := propsLoop_ok h3
  have eF : acc'.F = acc.F := by
    rw [a1, b1]
    exact congrArg _ (vsum_perm ((p1.symm.map (fun x => x.2.1)).map PropOut.F))
  have eM : acc'.M = acc.M := by
    rw [a2, b2]
    exact congrArg _ (vsum_perm ((p1.symm.map (fun x => x.2.1)).map PropOut.M))
  have hne : L ≠ [] := by
    rintro rfl
    simp at a3
    rw [a3] at hla
    cases hla
  obtain ⟨T', l', hl'⟩ : ∃ T l, acc'.last = some (T, l) := by
    rw [b3]
    rcases hq : (L'.map fun x => x.2.1).getLast? with _ | o
    · simp only [List.getLast?_eq_none_iff, List.map_eq_nil_iff] at hq
      subst hq
      exact absurd (List.perm_nil.1 p1) hne
    · exact ⟨o.T, o.l, by rw [hq]; rfl⟩
  have hloads : tot.loads = ⟨tot.loads.FL, tot.loads.FD, tot.loads.FS, acc.F.x, acc.F.y, acc.F.z, acc.M.x, acc.M.y, acc.M.z⟩ := by
    rw [← hF, ← hM]
  refine ⟨L, L', ⟨tot.loads, T', l'⟩, p1, rfl, rfl, h2, rfl, rfl, ?_, rfl⟩
  unfold propsForces
  simp only [h3, hu, eF, eM, hr, hl', ← hloads]

/-- **The order does not matter.** -/
theorem propsSolve_perm (pts : Option (ι → V3)) {sls sls' s2 : List (PropSlot ι)} (hp : sls.Perm sls') {tot : PropTotals}
    {f : Option (ι → ℝ × V3)} (h : propsSolve simps fuel pts aero ps sls = (.ok (tot, f), s2)) :
    ∃ tot' s2', propsSolve simps fuel pts aero ps sls' = (.ok (tot', f), s2') ∧ tot'.loads = tot.loads ∧ s2.Perm s2' := by
  unfold propsSolve at h ⊢
  obtain ⟨⟨tot1, outs⟩, s1, h1, h⟩ := bind_ok.1 h
  obtain ⟨L, L', tot', p1, rfl, rfl, hR, rfl, rfl, h2, h3⟩ := propsForces_perm simps fuel aero ps hp h1
  rw [bind_of_ok h2]
  rcases pts with _ | p
  · simp only [pure_run, Prod.mk.injEq, Except.ok.injEq] at h ⊢
    obtain ⟨⟨rfl, rfl⟩, rfl⟩ := h
    exact ⟨tot', _, ⟨⟨rfl, rfl⟩, rfl⟩, h3, p1.map _⟩
  · simp only at h ⊢
    cases hf : propFlow aero with
    | error e => rw [hf] at h; cases h
    | ok fl =>
      rw [hf, lift_ok_bind, get_bind] at h
      rw [lift_ok_bind, get_bind]
      have hz : ∀ L : List (PropSlot ι × PropOut × PropSt), ((L.map afterRun).map PropSlot.model).zip (L.map (·.2.1)) =
          L.map fun x => (x.1.model, x.2.1) := by
        intro L
        induction L with
        | nil => rfl
        | cons a t ih => rw [List.map_cons, List.map_cons, List.map_cons, List.zip_cons_cons, ih]; rfl
      rw [hz] at h
      rw [hz]
      split_ifs at h with hall
      · have key : ∀ i, pointVel fl (p i) (L'.map fun x => (x.1.model, x.2.1)) = pointVel fl (p i) (L.map fun x => (x.1.model, x.2.1)) := by
          intro i
          have := hall i
          cases hv : pointVel fl (p i) (L.map fun x => (x.1.model, x.2.1)) with
          | error e => rw [hv] at this; cases this
          | ok v => exact pointVel_perm fl (p i) (p1.map _) hv
        simp only [key]
        rw [if_pos (fun i => by rw [key]; exact hall i)]
        simp only [pure_run, Prod.mk.injEq, Except.ok.injEq] at h ⊢
        obtain ⟨⟨rfl, rfl⟩, rfl⟩ := h
        exact ⟨tot', _, ⟨⟨rfl, rfl⟩, rfl⟩, h3, p1.map _⟩
      · cases h

end Verif
