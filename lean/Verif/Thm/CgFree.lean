import Verif.Spec.CgFree
import Verif.Lemmas.Paired
import Verif.Thm.CraftCg
import Verif.Thm.AeroCenter
import Verif.Thm.Incomplete

/-!
# What does not depend on the location of the CG (C136)
-/

namespace Verif
open V3 Act Matrix

/-! ### The aerodynamic centre -/

/-- a row of the sweep of the aircraft with the other CG -/
noncomputable def ACPoint.moved (long : ℝ) (δ : V3) (p : ACPoint) : ACPoint := { p with Cm := p.Cm + (δ.z * p.CA - δ.x * p.CN) / long }

theorem sumOver_moved (long : ℝ) (δ : V3) (S : List ACPoint) (f : ACPoint → ℝ) (hf : ∀ p : ACPoint, f (p.moved long δ) = f p) :
    sumOver (S.map (ACPoint.moved long δ)) f = sumOver S f := by
  unfold sumOver
  rw [List.map_map]
  exact congrArg List.sum (List.map_congr_left fun p _ => hf p)

section
variable (long : ℝ) (δ : V3) (S : List ACPoint)

theorem fitAL0_moved : fitAL0 (S.map (ACPoint.moved long δ)) = fitAL0 S := by
  unfold fitAL0
  simp only [sumOver_moved long δ S (fun p => p.CL * Real.cos p.a) fun _ => rfl, sumOver_moved long δ S (fun p => p.CL * Real.sin p.a) fun _ => rfl,
    sumOver_moved long δ S (fun p => Real.sin p.a * Real.sin p.a) fun _ => rfl, sumOver_moved long δ S (fun p => Real.sin p.a * Real.cos p.a) fun _ => rfl,
    sumOver_moved long δ S (fun p => Real.cos p.a * Real.cos p.a) fun _ => rfl]

theorem fitSlope_moved (x : ℝ) : fitSlope (S.map (ACPoint.moved long δ)) x = fitSlope S x := by
  unfold fitSlope
  simp only [sumOver_moved long δ S (fun p => (Real.sin p.a - Real.tan x * Real.cos p.a) ^ 2) fun _ => rfl,
    sumOver_moved long δ S (fun p => p.CL * (Real.sin p.a - Real.tan x * Real.cos p.a)) fun _ => rfl]

theorem fitDrag_moved : fitDrag (S.map (ACPoint.moved long δ)) = fitDrag S := by
  unfold fitDrag
  simp only [sumOver_moved long δ S (fun p => p.CL) fun _ => rfl, sumOver_moved long δ S (fun p => p.CL * p.CL) fun _ => rfl,
    sumOver_moved long δ S (fun p => p.CL * p.CL * p.CL) fun _ => rfl, sumOver_moved long δ S (fun p => p.CL * p.CL * p.CL * p.CL) fun _ => rfl,
    sumOver_moved long δ S (fun p => p.CD) fun _ => rfl, sumOver_moved long δ S (fun p => p.CD * p.CL) fun _ => rfl,
    sumOver_moved long δ S (fun p => p.CD * p.CL * p.CL) fun _ => rfl, List.length_map]

theorem solve3_add (M : Matrix (Fin 3) (Fin 3) ℝ) (r v : Fin 3 → ℝ) : solve3 M (r + M *ᵥ v) = (solve3 M r).map (· + v) := by
  unfold solve3
  by_cases h : M.det = 0
  · rw [if_pos h, if_pos h]; rfl
  · rw [if_neg h, if_neg h, mulVec_add, mulVec_mulVec, nonsing_inv_mul M (isUnit_iff_ne_zero.2 h), one_mulVec]
    rfl

theorem sumOver_shift (g : ACPoint → ℝ) (hg : ∀ p : ACPoint, g (p.moved long δ) = g p) :
    sumOver (S.map (ACPoint.moved long δ)) (fun p => p.Cm * g p) = sumOver S (fun p => p.Cm * g p) +
      (-(δ.x / long) * sumOver S (fun p => g p * p.CN) + δ.z / long * sumOver S (fun p => g p * p.CA)) := by
  have : sumOver (S.map (ACPoint.moved long δ)) (fun p => p.Cm * g p) =
      sumOver S (fun p => p.Cm * g p + (-(δ.x / long) * (g p * p.CN) + δ.z / long * (g p * p.CA))) := by
    unfold sumOver
    rw [List.map_map]
    refine congrArg List.sum (List.map_congr_left fun p _ => ?_)
    simp only [Function.comp_apply, hg]
    simp only [ACPoint.moved]
    ring
  rw [this, sumOver_add, sumOver_add, sumOver_mul, sumOver_mul]

theorem fitMoment_moved : fitMoment (S.map (ACPoint.moved long δ)) = (fitMoment S).map (· + ![0, -(δ.x / long), δ.z / long]) := by
  unfold fitMoment
  simp only [sumOver_moved long δ S (fun p => Real.sin (2 * p.a) * Real.sin (2 * p.a)) fun _ => rfl,
    sumOver_moved long δ S (fun p => Real.sin (2 * p.a) * p.CN) fun _ => rfl, sumOver_moved long δ S (fun p => Real.sin (2 * p.a) * p.CA) fun _ => rfl,
    sumOver_moved long δ S (fun p => p.CN * p.CN) fun _ => rfl, sumOver_moved long δ S (fun p => p.CN * p.CA) fun _ => rfl,
    sumOver_moved long δ S (fun p => p.CA * p.CA) fun _ => rfl]
  rw [sumOver_shift long δ S (fun p => Real.sin (2 * p.a)) fun _ => rfl, sumOver_shift long δ S (fun p => p.CN) fun _ => rfl,
    sumOver_shift long δ S (fun p => p.CA) fun _ => rfl, ← solve3_add]
  congr 1
  have hc : sumOver S (fun p => p.CA * p.CN) = sumOver S (fun p => p.CN * p.CA) := sumOver_congr fun p _ => mul_comm _ _
  rw [hc]
  funext i
  fin_cases i <;> simp [Matrix.mulVec, dotProduct, Fin.sum_univ_three] <;> ring

theorem acLoc_moved {long : ℝ} (hl : long ≠ 0) (ao aL0 A : ℝ) (cd cm : Fin 3 → ℝ) (cg : V3) :
    acLoc long ao aL0 A cd (cm + ![0, -(δ.x / long), δ.z / long]) (cg + δ) = acLoc long ao aL0 A cd cm cg := by
  unfold acLoc
  simp only
  split_ifs
  · rfl
  · simp only [Pi.add_apply, cons_val_zero, cons_val_one, cons_val, add_x, add_z, add_zero, Option.some.injEq, V3.mk.injEq, true_and]
    constructor <;> field_simp <;> ring

theorem acPoint_moved {DP long : ℝ} {r r' : ℝ × Loads} (h : r'.1 = r.1 ∧ r.2.CgMoved δ r'.2) :
    acPoint DP long r' = (acPoint DP long r).moved long δ := by
  obtain ⟨h1, -, h2, h3⟩ := h
  simp only [Loads.F, V3.mk.injEq] at h2
  have hm := congrArg V3.y h3
  simp only [Loads.M, Loads.F, sub_y, cross] at hm
  unfold acPoint ACPoint.moved
  rw [h1, h2.1, h2.2.2, hm]
  simp only [ACPoint.mk.injEq, true_and]
  ring

end

section
variable {ι : Type} {B B' : Backend ι} {K : B.σ → B'.σ → Prop} {δ : V3} {D : AeroDict ι → Prop} {A : Option (AeroDict ι) → Prop}
  {ps : Option B.π} {ps' : Option B'.π} {F F' : List (String × Doc ι)}

theorem Paired.acBody' (hT : Paired B B' K (Loads.CgMoved δ) D ps ps') (cg : V3) :
    Lock (Pairs K (Meets D) F F') (fun a b => b = a) (acBody (B := B) ps cg) (acBody ps' (cg + δ)) := by
  unfold acBody
  refine bindEq (getAero' fun d => rfl) fun ao => bindEq (dyn hT) fun DP => (sweep hT _).bind fun rows rows' hr => ?_
  rw [hT.long]
  by_cases hx : DP = 0 ∨ B.long = 0
  · rw [if_pos hx, if_pos hx]
    exact Lock.raise _
  · rw [if_neg hx, if_neg hx]
    have hS : rows'.map (acPoint DP B.long) = (rows.map (acPoint DP B.long)).map (ACPoint.moved B.long δ) := by
      rw [List.map_map]
      induction hr with
      | nil => rfl
      | cons h _ ih => rw [List.map_cons, List.map_cons, ih, acPoint_moved δ h]; rfl
    rw [hS]
    simp only [fitAL0_moved, fitSlope_moved, fitDrag_moved, fitMoment_moved]
    refine bindEq (orRaise' _ _) fun _ => bindEq (orRaise' _ _) fun _ => bindEq (orRaise' _ _) fun _ => ?_
    cases fitMoment (rows.map (acPoint DP B.long)) with
    | none => exact Lock.raise _
    | some cm =>
      simp only [Option.map_some]
      refine Lock.bind (P := fun a b => b = a + ![0, -(δ.x / B.long), δ.z / B.long]) (Lock.ret rfl) fun a b h => ?_
      subst h
      rw [acLoc_moved δ (fun h => hx (Or.inr h))]
      exact orRaise' _ _

theorem Paired.center (hT : Paired B B' K (Loads.CgMoved δ) D ps ps') (hA : Around D A) (cg : V3) (f : Option String) :
    Lock (Pairs K A F F') (fun a b => b = a) (findAeroCenter (B := B) ps cg f) (findAeroCenter ps' (cg + δ) f) := by
  unfold findAeroCenter
  refine given' hA (bindEq (acBody' hT cg) fun r => bindU (write _ _) (Lock.pure rfl))
    ((withAero' hT.dflt (acBody' hT cg)).bind fun ⟨r, x⟩ ⟨r', x'⟩ h => ?_)
  obtain ⟨h1, -, -⟩ := h
  simp only at h1
  subst h1
  exact bindU (write _ _) (Lock.pure rfl)

theorem derivOf_moved (hlat : B'.lat = B.lat) (hlong : B'.long = B.long) (f f' b b' : Loads) (k : ℝ) (hf : f.CgMoved δ f') (hb : b.CgMoved δ b') :
    Option.Rel (Deriv.CgMoved B.lat B.long δ) (derivOf B f b k) (derivOf B' f' b' k) := by
  unfold derivOf
  rw [hlat, hlong]
  by_cases hx : k = 0 ∨ B.lat = 0 ∨ B.long = 0
  · rw [if_pos hx, if_pos hx]
    exact .none
  · rw [if_neg hx, if_neg hx]
    push Not at hx
    obtain ⟨hk, h1, h2⟩ := hx
    obtain ⟨f1, f2, f3⟩ := hf
    obtain ⟨b1, b2, b3⟩ := hb
    simp only [Loads.F, V3.mk.injEq, Prod.mk.injEq] at f1 f2 b1 b2
    have fx := congrArg V3.x f3
    have fy := congrArg V3.y f3
    have fz := congrArg V3.z f3
    have bx := congrArg V3.x b3
    have bY := congrArg V3.y b3
    have bz := congrArg V3.z b3
    simp only [Loads.M, Loads.F, sub_x, sub_y, sub_z, cross] at fx fy fz bx bY bz
    refine .some ⟨?_, ?_, ?_, ?_, ?_, ?_, ?_⟩ <;> simp only [f1, f2, b1, b2, fx, fy, fz, bx, bY, bz]
    ext <;> simp only [sub_x, sub_y, sub_z, cross] <;> field_simp <;> ring

/-- one call of a method that neither rotates the aircraft nor looks for a moment -/
theorem Paired.call (hT : Paired B B' K (Loads.CgMoved δ) D ps ps') (hA : Around D A) {what : Analysis} (ho : what.ForcesOnly)
    (hb : ∀ L e f, what = .targetLift L e f → Lock K (fun r r' => r'.map (·.FL) = r.map (·.FL)) B.solveBad B'.solveBad) (cg : V3)
    {w : World B} {w' : World B'} (h : Pairs K A F F' w w') :
    Outcome (Answer.CgMoved B.lat B.long δ) (perform ps cg what w).1 (perform ps' (cg + δ) what w').1 ∧
      K (perform ps cg what w).2.st (perform ps' (cg + δ) what w').2.st ∧
      ((∀ f, what ≠ .solve f) → Pairs K A F F' (perform ps cg what w).2 (perform ps' (cg + δ) what w').2) := by
  have done : ∀ {m : Act (World B) Answer} {m' : Act (World B') Answer}, Lock (Pairs K A F F') (Answer.CgMoved B.lat B.long δ) m m' →
      Outcome (Answer.CgMoved B.lat B.long δ) (m w).1 (m' w').1 ∧ K (m w).2.st (m' w').2.st ∧
      ((∀ f, what ≠ .solve f) → Pairs K A F F' (m w).2 (m' w').2) := fun hm => ⟨(hm w w' h).1, (hm w w' h).2.st, fun _ => (hm w w' h).2⟩
  have hZ := fun f f' b b' k hf hb => derivOf_moved (δ := δ) hT.lat hT.long f f' b b' k hf hb
  cases what with
  | solve f =>
    obtain ⟨h1, h2⟩ := solveFile hT hA f h
    refine ⟨?_, ?_, fun hx => absurd rfl (hx f)⟩
    · show Outcome _ ((muSolveFile ps f >>= fun r => pure (Answer.loads r)) w).1 ((muSolveFile ps' f >>= fun r => pure (Answer.loads r)) w').1
      rw [bind_def, bind_def]
      revert h1
      generalize muSolveFile ps f w = a
      generalize muSolveFile ps' f w' = a'
      intro h1
      rcases a with ⟨e | a, w1⟩ <;> rcases a' with ⟨e' | a', w1'⟩ <;> exact h1
    · show K ((muSolveFile ps f >>= fun r => pure (Answer.loads r)) w).2.st ((muSolveFile ps' f >>= fun r => pure (Answer.loads r)) w').2.st
      rw [bind_def, bind_def]
      revert h2
      generalize muSolveFile ps f w = a
      generalize muSolveFile ps' f w' = a'
      intro h2
      rcases a with ⟨e | a, w1⟩ <;> rcases a' with ⟨e' | a', w1'⟩ <;> exact h2
  | stability => exact done ((stability hT hA hZ).bind fun r r' h => Lock.pure h)
  | damping => exact ho.elim
  | control => exact done ((control hT hA hZ).bind fun r r' h => Lock.pure h)
  | derivatives f => exact ho.elim
  | stallOnset f n => exact done ((onsetFile hT hA f n).bind fun r r' h => Lock.pure h)
  | stallAirspeed W e f n k => exact done ((airspeed hT hA W e f n k).bind fun r r' h => Lock.pure h)
  | targetLift L e f => exact done ((target hT hA (hb L e f rfl) L e f).bind fun r r' h => Lock.pure h)
  | pitchTrim L M e f => exact ho.elim
  | aeroCenter f => exact done ((center hT hA cg f).bind fun r r' h => Lock.pure h)

end

/-! ### The solvers -/

theorem llSolve_results_val {n : ℕ} (G : LLGeom (Fin n)) (st : LLState (Fin n)) (d : AeroDict (Fin n)) (c : Option CtrlDict) (ht : d.truthy = true) :
    (llSolve G st "linear" (some d) c).2.results =
      match arrOf G d with
      | .error _ => st.results
      | .ok _ =>
        match (llSolve G st "linear" (some d) c).1 with
        | .ok R => some R
        | .error .linAlg => st.results
        | .error _ => none := by
  have h := processAero_explicit G st d ht
  cases ha : arrOf G d with
  | error e =>
    rw [ha] at h
    simp only at h ⊢
    unfold llSolve
    rw [h]
  | ok a =>
    rw [ha] at h
    simp only at h ⊢
    obtain ⟨rt, h⟩ := h
    unfold llSolve
    rw [h]
    simp only [if_true]
    have hres : (processCtrl G { st with v := a.v, u := a.u, rho := a.rho, rates := rt } c).results = st.results := by
      unfold processCtrl
      cases c with
      | none => rfl
      | some c => simp only; split <;> rfl
    rcases runLinear G (processCtrl G { st with v := a.v, u := a.u, rho := a.rho, rates := rt } c) with e | R
    · cases e
      all_goals first
        | exact hres
        | rfl
    · rfl

/-- the states of the solvers of the two aircraft: the same deflections, the same section lift coefficients, propellers that
differ in the CG only -/
structure CgStates {n : ℕ} (δ : V3) (s s' : LLState (Fin n) × List (PropSlot (Fin n))) : Prop where
  ctrl : s'.1.ctrl = s.1.ctrl
  cl : s'.1.results.map (·.cl) = s.1.results.map (·.cl)
  slots : List.Forall₂ (SlotSim (cgScl δ) fun st st' => st' = st) s.2 s'.2

/-- a flight condition without rotation -/
def NoTurn {ι : Type} (d : AeroDict ι) : Prop := d.truthy = true ∧ d.roll = none ∧ d.pitch = none ∧ d.yaw = none

theorem llSolve_cgStates {n : ℕ} (G : LLGeom (Fin n)) (δ : V3) {st st' : LLState (Fin n)} (hst : st'.ctrl = st.ctrl)
    (hcl : st'.results.map (·.cl) = st.results.map (·.cl)) (d : AeroDict (Fin n)) (hd : NoTurn d) (c : Option CtrlDict) :
    Outcome (fun S S' => S.total.CgMoved δ S'.total) (llSolve G st "linear" (some d) c).1
      (llSolve { G with cg := G.cg + δ } st' "linear" (some d) c).1 ∧
    (llSolve { G with cg := G.cg + δ } st' "linear" (some d) c).2.ctrl = (llSolve G st "linear" (some d) c).2.ctrl ∧
    (llSolve { G with cg := G.cg + δ } st' "linear" (some d) c).2.results.map (·.cl) = (llSolve G st "linear" (some d) c).2.results.map (·.cl) := by
  obtain ⟨ht, hr⟩ := hd
  have harr : arrOf { G with cg := G.cg + δ } d = arrOf G d := by
    have : d.hasRates = false := by simp [AeroDict.hasRates, hr]
    unfold arrOf rotArr
    simp only [this]
    rfl
  have e : (llSolve { G with cg := G.cg + δ } st' "linear" (some d) c).1 = (llSolve { G with cg := G.cg + δ } st "linear" (some d) c).1 := by
    rw [llSolve_aero _ _ _ _ ht, llSolve_aero _ _ _ _ ht, processCtrl_ctrl _ st st' c hst]
  have hk := C28_cg_transfer G st "linear" (some d) c δ (by rintro _ ⟨⟩; exact hr)
  rw [← e] at hk
  refine ⟨hk.mono ?_, (llSolve_cg G δ hst d ht hr c).2, ?_⟩
  · rintro R R' - - ⟨-, -, -, -, -, -, h1, -, -, h2, -, -, h3⟩
    exact ⟨h1, h2, h3⟩
  · rw [llSolve_results_val _ _ _ _ ht, llSolve_results_val _ _ _ _ ht, harr]
    cases arrOf G d with
    | error e => exact hcl
    | ok a =>
      simp only
      revert hk
      generalize (llSolve G st "linear" (some d) c).1 = x
      generalize (llSolve { G with cg := G.cg + δ } st' "linear" (some d) c).1 = x'
      intro hk
      rcases x with e | R <;> rcases x' with e' | R'
      · have hk : e = e' := hk
        subst hk
        cases e <;> first | exact hcl | rfl
      · exact hk.elim
      · exact hk.elim
      · obtain ⟨-, -, -, h, -⟩ := hk
        simp only [Option.map_some, Option.some.injEq]
        exact funext h.cl

section
variable {p : Plane} {o : Analyser} {simps : List ℝ → List ℝ → ℝ} {fuel : ℕ} {δ : V3}
  {bad bad' : Act (LLState (Fin (sectionsOf o.wing)) × List (PropSlot (Fin (sectionsOf o.wing)))) (Option Loads)}

theorem Loads.CgMoved.add {a a' b b' : Loads} (h : a.CgMoved δ a') (k : b.CgMoved δ b') : (a.add b).CgMoved δ (a'.add b') := by
  obtain ⟨f1, f2, f3⟩ := h
  obtain ⟨b1, b2, b3⟩ := k
  simp only [Loads.F, V3.mk.injEq, Prod.mk.injEq] at f1 f2 b1 b2
  have fx := congrArg V3.x f3
  have fy := congrArg V3.y f3
  have fz := congrArg V3.z f3
  have bx := congrArg V3.x b3
  have bY := congrArg V3.y b3
  have bz := congrArg V3.z b3
  simp only [Loads.M, Loads.F, sub_x, sub_y, sub_z, cross] at fx fy fz bx bY bz
  refine ⟨?_, ?_, ?_⟩
  · simp only [Loads.add, f1, b1]
  · simp only [Loads.add, Loads.F, f2, b2]
  · ext <;> simp only [Loads.add, Loads.M, Loads.F, sub_x, sub_y, sub_z, cross, fx, fy, fz, bx, bY, bz] <;> ring

theorem cgMoved_sim (T : Loads) : T.CgMoved δ (T.sim (cgScl δ)) := by
  simp only [Loads.sim, cgScl_a, one_mul]
  refine ⟨rfl, rfl, ?_⟩
  ext <;> simp [Loads.M, Loads.F, cgScl]

theorem paired_cg (ps : Option PropDict) :
    Paired (o.backend p simps fuel bad) (Analyser.backend ⟨o.wing, o.slots.map fun s => s.map (·.withCg (p.cg + δ))⟩ { p with cg := p.cg + δ } simps fuel bad')
      (CgStates δ) (Loads.CgMoved δ) NoTurn ps ps where
  props := rfl
  wings := rfl
  Sw := rfl
  lat := rfl
  long := rfl
  prop d hd := by
    rintro ⟨l, sl⟩ ⟨l', sl'⟩ hs
    have hs2 := hs.slots
    simp only [Analyser.backend, Analyser.backendOf]
    rw [Option.isSome_map]
    by_cases hsome : o.slots.isSome = true
    · simp only [hsome, if_true]
      have := propsSolve_sim (s := cgScl δ) (simps := simps) (fuel := fuel) (Equiv.refl _) (flowSim_cg δ hd.1) (runsAlike_cg simps fuel δ hd.1 (ps.getD []))
        (pts := if !p.wings.isEmpty then pointsOf o.wing else none)
        (pts' := if !p.wings.isEmpty then pointsOf o.wing else none)
        (by
          generalize (if !p.wings.isEmpty then pointsOf o.wing else none) = q
          cases q with
          | none => rfl
          | some f => simp [cgScl])
        (slotSim_withCg p.cg hs2)
      rw [show (cgScl δ).l • p.cg + (cgScl δ).t + (cgScl δ).e = p.cg + δ by simp [cgScl]] at this
      revert this
      generalize propsSolve simps fuel _ (some d) (ps.getD []) (List.map _ sl) = A
      generalize propsSolve simps fuel _ (some d) (ps.getD []) (List.map _ sl') = A'
      rintro ⟨k1, k2⟩
      rcases A with ⟨e | r, s1⟩ <;> rcases A' with ⟨e' | r', s1'⟩ <;> simp [Except.map] at k1
      · exact ⟨k1.symm, hs.ctrl, hs.cl, k2⟩
      · subst k1
        refine ⟨⟨cgMoved_sim _, ?_⟩, hs.ctrl, hs.cl, k2⟩
        obtain ⟨r1, r2⟩ := r
        cases r2 with
        | none => rfl
        | some f => simp [cgScl]
    · simp only [hsome]
      exact ⟨rfl, hs⟩
  wing d c hd := by
    rintro ⟨l, sl⟩ ⟨l', sl'⟩ hs
    simp only [Analyser.backend, Analyser.backendOf]
    by_cases hi : o.wing.isSome = true
    · simp only [hi, if_true]
      have hG : geomOf (p.cg + δ) o.wing = { geomOf p.cg o.wing with cg := (geomOf p.cg o.wing).cg + δ } := by
        cases ho : o.wing with
        | none => rw [ho] at hi; cases hi
        | some W => rfl
      obtain ⟨k1, k2, k3⟩ := llSolve_cgStates (geomOf p.cg o.wing) δ hs.ctrl hs.cl d hd c
      rw [hG]
      exact ⟨k1, k2, k3, hs.slots⟩
    · simp only [hi]
      exact ⟨rfl, hs⟩
  stall s s' hs := by
    have hcl := hs.cl
    show s'.1.results.bind _ = s.1.results.bind _
    have hS : (geomOf (p.cg + δ) o.wing).S = (geomOf p.cg o.wing).S := by
      cases o.wing <;> rfl
    show (s'.1.results.bind fun R => findStall (geomOf (p.cg + δ) o.wing).S R.cl) = s.1.results.bind fun R => findStall (geomOf p.cg o.wing).S R.cl
    rw [hS]
    generalize s'.1.results = x' at *
    generalize s.1.results = x at *
    cases x <;> cases x' <;> simp at hcl
    · rfl
    · simp only [Option.bind_some, hcl]
  zero := ⟨rfl, rfl, by ext <;> simp [Loads.M, Loads.F, Loads.zero]⟩
  add _ _ _ _ h k := h.add k
  lift T T' h := by
    have := h.1
    simp only [Prod.mk.injEq] at this
    exact this.1
  given d h := h.1
  alpha d x h := ⟨by simp [AeroDict.truthy], h.2⟩
  beta d x h := ⟨by simp [AeroDict.truthy], h.2⟩
  speed d x h := ⟨by simp [AeroDict.truthy], h.2⟩
  field d x h := ⟨by simp [AeroDict.truthy], h.2⟩
  dflt := ⟨by simp [defaultAeroDict, AeroDict.truthy], rfl, rfl, rfl⟩

/-- solves with an angle of attack that is `nan`/`inf` (what they do is a parameter of the model) are alike too -/
def BadAlike {n : ℕ} (δ : V3) (bad bad' : Act (LLState (Fin n) × List (PropSlot (Fin n))) (Option Loads)) : Prop :=
  Lock (CgStates δ) (fun r r' => r'.map (·.FL) = r.map (·.FL)) bad bad'

theorem around_noRates {ι : Type} : Around (ι := ι) NoTurn NoRates where
  inner a h ht := by
    cases a with
    | none => cases ht
    | some d => exact ⟨d, rfl, ht, h d rfl⟩
  outer a h := by
    obtain ⟨d, rfl, h⟩ := h
    rintro _ ⟨⟩
    exact h.2

end

/-- **C136.** Two aircraft, with any wings and propellers, that differ in the location of their CG only, `δ` apart; the same calls
on a `MachUp` object of each, without rotation rates.  Whatever has been called before: every call of `stall_onset`,
`stall_airspeed`, `target_lift` or `find_aero_center` has the same outcome and writes the same files; every call of
`stability_derivatives` or `control_derivatives` fails with the same exception, or gives the same force derivatives, and moment
derivatives that differ as the moments of the forces about the two points do. -/
theorem C136_cg (table : String → ℝ → ℝ) (mem : String → ℕ → ℕ → Option ℝ) (simps : List ℝ → List ℝ → ℝ) (fuel : ℕ) (p : Plane) (δ : V3)
    {o : Analyser} (ho : openMachUp table mem p = .ok o) :
    ∃ slots', openMachUp table mem { p with cg := p.cg + δ } = .ok ⟨o.wing, slots'⟩ ∧
      ∀ (bad bad' : _) (hist : List (Request (Fin (sectionsOf o.wing)))) (k : Request (Fin (sectionsOf o.wing))),
        (∀ r ∈ hist ++ [k], r.what.ForcesOnly ∧ NoRates r.aero ∧ ∀ L e f, r.what = .targetLift L e f → BadAlike δ bad bad') →
        let call (r : Request (Fin (sectionsOf o.wing))) : AnyCall (o.backend p simps fuel bad) := ⟨r.what, r.aero, r.ctrl, r.ps⟩
        let call' (r : Request (Fin (sectionsOf o.wing))) : AnyCall (Analyser.backend ⟨o.wing, slots'⟩ { p with cg := p.cg + δ } simps fuel bad') :=
          ⟨r.what, r.aero, r.ctrl, r.ps⟩
        let w := afterCalls p.cg (o.fresh p simps fuel bad none none) (hist.map call)
        let w' := afterCalls (p.cg + δ) (Analyser.fresh ⟨o.wing, slots'⟩ { p with cg := p.cg + δ } simps fuel bad' none none) (hist.map call')
        let r := (call k).run p.cg w
        let r' := (call' k).run (p.cg + δ) w'
        Outcome (Answer.CgMoved (o.backend p simps fuel bad).lat (o.backend p simps fuel bad).long δ) r.1 r'.1 ∧
        ((∀ f, k.what ≠ .solve f) → r'.2.aero = r.2.aero ∧ r'.2.ctrl = r.2.ctrl ∧ ∃ l, r.2.files = w.files ++ l ∧ r'.2.files = w'.files ++ l) := by
  refine ⟨_, open_cg ho _, fun bad bad' hist k hk => ?_⟩
  intro call call' w w' r r'
  have step : ∀ (w : World (o.backend p simps fuel bad))
      (w' : World (Analyser.backend ⟨o.wing, o.slots.map fun s => s.map (·.withCg (p.cg + δ))⟩ { p with cg := p.cg + δ } simps fuel bad'))
      (q : Request (Fin (sectionsOf o.wing))), CgStates δ w.st w'.st →
      q.what.ForcesOnly ∧ NoRates q.aero ∧ (∀ L e f, q.what = .targetLift L e f → BadAlike δ bad bad') →
      Outcome (Answer.CgMoved (o.backend p simps fuel bad).lat (o.backend p simps fuel bad).long δ) ((call q).run p.cg w).1 ((call' q).run (p.cg + δ) w').1 ∧
      CgStates δ ((call q).run p.cg w).2.st ((call' q).run (p.cg + δ) w').2.st ∧
      ((∀ f, q.what ≠ .solve f) → ((call' q).run (p.cg + δ) w').2.aero = ((call q).run p.cg w).2.aero ∧
        ((call' q).run (p.cg + δ) w').2.ctrl = ((call q).run p.cg w).2.ctrl ∧
        ∃ l, ((call q).run p.cg w).2.files = w.files ++ l ∧ ((call' q).run (p.cg + δ) w').2.files = w'.files ++ l) := by
    intro w w' q hs hq
    have := (paired_cg (o := o) (p := p) (simps := simps) (fuel := fuel) (δ := δ) (bad := bad) (bad' := bad') q.ps).call around_noRates
      (A := NoRates) (F := w.files) (F' := w'.files) (what := q.what) hq.1 (fun L e f h => hq.2.2 L e f h) p.cg
      (w := { w with aero := q.aero, ctrl := q.ctrl }) (w' := { w' with aero := q.aero, ctrl := q.ctrl })
      ⟨rfl, hq.2.1, rfl, ⟨[], by simp, by simp⟩, hs⟩
    exact ⟨this.1, this.2.1, fun h => ⟨(this.2.2 h).aero, (this.2.2 h).ctrl, (this.2.2 h).files⟩⟩
  have run : ∀ (hist : List (Request (Fin (sectionsOf o.wing)))) (w : World (o.backend p simps fuel bad))
      (w' : World (Analyser.backend ⟨o.wing, o.slots.map fun s => s.map (·.withCg (p.cg + δ))⟩ { p with cg := p.cg + δ } simps fuel bad')),
      CgStates δ w.st w'.st →
      (∀ r ∈ hist, r.what.ForcesOnly ∧ NoRates r.aero ∧ ∀ L e f, r.what = .targetLift L e f → BadAlike δ bad bad') →
      CgStates δ (afterCalls p.cg w (hist.map call)).st (afterCalls (p.cg + δ) w' (hist.map call')).st := by
    intro hist
    induction hist with
    | nil => intro w w' h _; exact h
    | cons q t ih => exact fun w w' h hq => ih _ _ (step w w' q h (hq q (by simp))).2.1 fun r hr => hq r (by simp [hr])
  obtain ⟨-, hs⟩ := slots_cases ho
  have hslots : List.Forall₂ (SlotSim (cgScl δ) fun st st' => st' = st) (o.slots.getD [])
      ((o.slots.map fun s => s.map (·.withCg (p.cg + δ))).getD []) := by
    rcases hs with ⟨-, q1⟩ | ⟨-, s, q1, q2⟩
    · rw [q1]; exact .nil
    · rw [q1]
      simp only [Option.map_some, Option.getD_some]
      have hcg := openProps_models q2
      clear q1 q2
      induction s with
      | nil => exact .nil
      | cons a t ih =>
        exact .cons ⟨rfl, simM_cg (by rw [hcg a (by simp)]), rfl⟩ (ih fun sl h => hcg sl (by simp [h]))
  have hfin := step w w' k (run hist _ _ ⟨rfl, rfl, hslots⟩ fun r hr => hk r (by simp [hr])) (hk k (by simp))
  exact ⟨hfin.1, hfin.2.2⟩

/-- Non-vacuity of C136: the demonstration aircraft and the same with the CG at half a chord; after a `solve`, `stability_derivatives`
at 3 degrees returns for both. -/
example (table : String → ℝ → ℝ) (mem : String → ℕ → ℕ → Option ℝ) (simps : List ℝ → List ℝ → ℝ) (fuel : ℕ) : ∃ o slots',
    openMachUp table mem unitPlane = .ok o ∧ openMachUp table mem { unitPlane with cg := unitPlane.cg + ⟨1 / 2, 0, 0⟩ } = .ok ⟨o.wing, slots'⟩ ∧
    ∀ bad bad',
      let call (r : Request (Fin (sectionsOf o.wing))) : AnyCall (o.backend unitPlane simps fuel bad) := ⟨r.what, r.aero, r.ctrl, r.ps⟩
      let call' (r : Request (Fin (sectionsOf o.wing))) :
        AnyCall (Analyser.backend ⟨o.wing, slots'⟩ { unitPlane with cg := unitPlane.cg + ⟨1 / 2, 0, 0⟩ } simps fuel bad') := ⟨r.what, r.aero, r.ctrl, r.ps⟩
      let solve : Request (Fin (sectionsOf o.wing)) := ⟨.solve none, some (exampleState 2 0 10 1), none, none⟩
      let stab : Request (Fin (sectionsOf o.wing)) := ⟨.stability, some (exampleState 3 0 10 1), none, none⟩
      ∃ D D', ((call stab).run unitPlane.cg (afterCalls unitPlane.cg (o.fresh unitPlane simps fuel bad none none) [call solve])).1 = .ok (.stab D) ∧
        ((call' stab).run (unitPlane.cg + ⟨1 / 2, 0, 0⟩) (afterCalls (unitPlane.cg + ⟨1 / 2, 0, 0⟩)
          (Analyser.fresh ⟨o.wing, slots'⟩ { unitPlane with cg := unitPlane.cg + ⟨1 / 2, 0, 0⟩ } simps fuel bad' none none) [call' solve])).1 = .ok (.stab D') := by
  obtain ⟨g, hg⟩ := grid_exists _ _ _ unit_wellFormed true
  obtain ⟨slots', ho', h⟩ := C136_cg table mem simps fuel unitPlane ⟨1 / 2, 0, 0⟩ (unit_open table mem hg)
  refine ⟨_, slots', unit_open table mem hg, ho', fun bad bad' => ?_⟩
  intro call call' solve stab
  have front : ∀ a b : ℝ, |a| < 90 → |b| < 90 → FromFront unitPlane a b := by
    intro a b ha hb
    refine ⟨hb, fun s hs => ?_⟩
    rw [unit_segments] at hs
    rcases List.mem_pair.1 hs with rfl | rfl <;> simpa [unitSeg] using ha
  have hw : unitPlane.wings ≠ [] := by rw [unit_wings]; simp
  have good : ∀ a b : ℝ, |a| < 90 → |b| < 90 → ∃ x y, Plain ({ (exampleState 3 0 10 1 : AeroDict
      (Fin (sectionsOf (some (⟨g, 2, g.refArea / 2⟩ : WingPart))))) with alpha := some a, beta := some b }) 10 1 x y ∧ FromFront unitPlane x y :=
    fun a b ha hb => ⟨a, b, ⟨rfl, rfl, rfl, rfl, rfl, rfl, rfl, rfl⟩, front a b ha hb⟩
  obtain ⟨D, v, hD⟩ := stab_returns (B := Analyser.backend ⟨some ⟨g, 2, g.refArea / 2⟩, none⟩ unitPlane simps fuel bad) (ps := none)
    (w := { afterCalls unitPlane.cg (Analyser.fresh ⟨some ⟨g, 2, g.refArea / 2⟩, none⟩ unitPlane simps fuel bad none none) [call solve] with
      aero := some (exampleState 3 0 10 1), ctrl := none })
    (good := fun d' => ∃ x y, Plain d' 10 1 x y ∧ FromFront unitPlane x y)
    (by show (!unitPlane.wings.isEmpty) = true; simp [hw]) rfl
    (fun w1 d1 hd1 ⟨x, y, h1, h2⟩ => by
      obtain ⟨t, ht⟩ := straight_muSolve (wp := ⟨g, 2, g.refArea / 2⟩) unit_straight hw rfl hg h1 (by norm_num) h2 w1 hd1 none
      exact ⟨t, _, Prod.ext ht rfl⟩) (d := exampleState 3 0 10 1) rfl rfl
    (good (3 - 0.5) 0 (by norm_num [abs_lt]) (by norm_num)) (good (3 + 0.5) 0 (by norm_num [abs_lt]) (by norm_num))
    (good 3 (0 - 0.5) (by norm_num [abs_lt]) (by norm_num [abs_lt])) (good 3 (0 + 0.5) (by norm_num [abs_lt]) (by norm_num [abs_lt]))
  have e : ((call stab).run unitPlane.cg (afterCalls unitPlane.cg (Analyser.fresh ⟨some ⟨g, 2, g.refArea / 2⟩, none⟩ unitPlane simps fuel bad none none)
      [call solve])).1 = .ok (.stab D) := by
    exact congrArg Prod.fst (bind_of_ok hD fun r => pure (Answer.stab r))
  have hk := (h bad bad' [solve] stab (by
    intro r hr
    rcases List.mem_pair.1 hr with rfl | rfl
    · exact ⟨trivial, by rintro _ ⟨⟩; exact ⟨rfl, rfl, rfl⟩, by rintro _ _ _ ⟨⟩⟩
    · exact ⟨trivial, by rintro _ ⟨⟩; exact ⟨rfl, rfl, rfl⟩, by rintro _ _ _ ⟨⟩⟩)).1
  have e' : ∀ (r r' : Except PyErr Answer) (D : StabDeriv) (a b : ℝ), Outcome (Answer.CgMoved a b ⟨1 / 2, 0, 0⟩) r r' → r = .ok (.stab D) →
      ∃ D', r' = .ok (.stab D') := by
    rintro r (e | A) D a b h rfl
    · exact h.elim
    · cases A with
      | stab D' => exact ⟨D', rfl⟩
      | _ => exact h.elim
  obtain ⟨D', hD'⟩ := e' _ _ D _ _ hk e
  exact ⟨D, D', e, hD'⟩

end Verif
