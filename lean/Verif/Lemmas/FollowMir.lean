import Verif.Lemmas.FollowSim
import Verif.Thm.PropMirror
import Verif.Spec.MirrorCalls

/-! Helper lemmas: the calls of an aircraft and of its mirror image. -/

namespace Verif
open V3 Act

/-- the mirror image has the same reference area and lengths -/
theorem refs_mirror {p p' : Plane} (h : CraftMir p p') {w w' : Option WingPart} (hw : mkWingPart p = .ok w) (hw' : mkWingPart p' = .ok w') :
    (w'.map (·.Sw)).getD 0 = (w.map (·.Sw)).getD 0 ∧ (w'.map (·.lat)).getD 0 = (w.map (·.lat)).getD 0 ∧
    (w'.map (·.long)).getD 0 = (w.map (·.long)).getD 0 := by
  unfold mkWingPart at hw hw'
  rw [h.wings] at hw'
  by_cases h0 : p.wings = []
  · rw [if_pos h0] at hw hw'
    cases hw; cases hw'
    exact ⟨rfl, rfl, rfl⟩
  · rw [if_neg h0] at hw hw'
    cases hg : mkGrid p true with
    | error e => rw [hg] at hw; cases hw
    | ok g =>
      cases hg' : mkGrid p' true with
      | error e => rw [hg'] at hw'; cases hw'
      | ok g' =>
        obtain ⟨-, hr⟩ := h.toPlaneMir.grids hg hg'
        rw [hg] at hw
        rw [hg'] at hw'
        simp only [bind, Except.bind] at hw hw'
        rw [hr, h.toPlaneMir.refLengths h.latRef h.longRef] at hw'
        cases hl : refLengths p g.refArea with
        | error e => rw [hl] at hw; cases hw
        | ok l =>
          rw [hl] at hw hw'
          cases hw; cases hw'
          exact ⟨hr, rfl, rfl⟩

/-- sections that correspond to each other, in whatever order, stall alike -/
theorem findStall_perm {n n' : ℕ} {S : Fin n → Section} {S' : Fin n' → Section} {cl : Fin n → ℝ} {cl' : Fin n' → ℝ} (σ : Fin n ≃ Fin n')
    (hmax : ∀ i, (S' (σ i)).clMax = (S i).clMax) (hcl : ∀ i, cl' (σ i) = cl i) :
    Option.Rel (fun _ _ => True) (findStall S cl) (findStall S' cl') := by
  have e : stalledSections S' cl' = [] ↔ stalledSections S cl = [] := by
    unfold stalledSections
    simp only [List.filter_eq_nil_iff, List.mem_finRange, forall_const, decide_eq_true_eq]
    constructor
    · intro h i hi
      exact h (σ i) (by rw [hmax, hcl]; exact hi)
    · intro h i hi
      have := h (σ.symm i)
      rw [← hmax, ← hcl, σ.apply_symm_apply] at this
      exact this hi
  rw [findStall_eq, findStall_eq]
  cases h : stalledSections S cl with
  | nil => rw [e.2 h]; exact .none
  | cons a t =>
    cases h' : stalledSections S' cl' with
    | nil => rw [e.1 h'] at h; cases h
    | cons a' t' => exact .some trivial

/-- the states of the two objects -/
def MirStates {ι ι' : Type} (σ : ι ≃ ι') (st : LLState ι × List (PropSlot ι)) (st' : LLState ι' × List (PropSlot ι')) : Prop :=
  StMir σ (fun a b => b = a) st st' ∧ Option.Rel (fun R R' => ∀ i, R'.cl (σ i) = R.cl i) st.1.results st'.1.results

/-- the flight conditions -/
def MirDict {ι ι' : Type} (σ : ι ≃ ι') (d : AeroDict ι) (d' : AeroDict ι') : Prop :=
  d' = d.mirror.reindex σ ∧ d.Vmag.isSome = true ∧ d.rho.isSome = true

/-- the control deflections -/
def MirCtrl (c c' : CtrlDict) : Prop := c' = c.mirror

section
variable {o o' : Analyser} {p p' : Plane} {σ : Fin (sectionsOf o.wing) ≃ Fin (sectionsOf o'.wing)}
  {simps : List ℝ → List ℝ → ℝ} {fuel : ℕ} {bad : _} {bad' : _} {ps : Option PropDict}

theorem mirDict_truthy {ι ι' : Type} [Fintype ι] [DecidableEq ι] [Fintype ι'] [DecidableEq ι'] {σ : ι ≃ ι'} {d : AeroDict ι} {d' : AeroDict ι'}
    (h : MirDict σ d d') : d.truthy = true ∧ d'.truthy = true := by
  obtain ⟨rfl, hV, hr⟩ := h
  obtain ⟨V, hV⟩ := Option.isSome_iff_exists.1 hV
  have : d.truthy = true := by simp [AeroDict.truthy, hV]
  exact ⟨this, by rw [truthy_reindex, truthy_mirror, this]⟩

theorem follow_mir (hO : ObjMir o o' p p' σ) (hmax : ∀ i, ((geomOf p'.cg o'.wing).S (σ i)).clMax = ((geomOf p.cg o.wing).S i).clMax) :
    Follow (o.backend p simps fuel bad) (o'.backend p' simps fuel bad') (MirStates σ) (MirDict σ) MirCtrl
      (fun T T' => T' = T.mirror) (fun _ _ => True) 1 1 ps ps where
  props := by show (!p'.props.isEmpty) = !p.props.isEmpty; rw [hO.props]
  wings := by show (!p'.wings.isEmpty) = !p.wings.isEmpty; rw [hO.wings]
  prop d d' hd := by
    rintro ⟨l, sl⟩ ⟨l', sl'⟩ ⟨⟨h1, h2⟩, h3⟩
    obtain ⟨rfl, -, -⟩ := hd
    simp only at h1 h2 h3
    simp only [Analyser.backend, Analyser.backendOf]
    rw [hO.slots]
    by_cases hsome : o.slots.isSome = true
    · simp only [hsome, if_true]
      have := propsSolve_mirror simps fuel σ (flowMir_of σ d) (ps.getD []) (by rintro a b rfl; rfl) (pts := if !p.wings.isEmpty then pointsOf o.wing else none)
        (pts' := if !p'.wings.isEmpty then pointsOf o'.wing else none) (by rw [hO.wings]; split_ifs; exacts [hO.points, rfl])
        (slotMir_withCg p.cg h2)
      rw [← hO.cg] at this
      revert this
      generalize propsSolve simps fuel _ (some d) (ps.getD []) _ = A
      generalize propsSolve simps fuel _ (some _) (ps.getD []) _ = A'
      rintro ⟨k1, k2⟩
      rcases A with ⟨e | r, s1⟩ <;> rcases A' with ⟨e' | r', s1'⟩ <;> simp [Except.map] at k1
      · exact ⟨k1.symm, ⟨h1, k2⟩, h3⟩
      · subst k1
        refine ⟨⟨rfl, ?_⟩, ⟨h1, k2⟩, h3⟩
        obtain ⟨r1, r2⟩ := r
        cases r2 with
        | none => exact .none
        | some f =>
          refine .some ?_
          rintro e e' ⟨rfl, hV, hr⟩
          exact ⟨rfl, hV, hr⟩
    · simp only [hsome]
      exact ⟨rfl, ⟨h1, h2⟩, h3⟩
  wing d d' c c' hd hc := by
    rintro ⟨l, sl⟩ ⟨l', sl'⟩ ⟨⟨h1, h2⟩, h3⟩
    have hcc : c' = c.map CtrlDict.mirror := by cases hc with
      | none => rfl
      | some h => rw [h]; rfl
    subst hcc
    simp only at h1 h2 h3
    simp only [Analyser.backend, Analyser.backendOf]
    rw [hO.wing]
    by_cases hi : o.wing.isSome = true
    · simp only [hi, if_true]
      obtain ⟨g1, g2⟩ := mirDict_truthy hd
      obtain ⟨rfl, hV, hr⟩ := hd
      obtain ⟨k1, k2⟩ := hO.solves d c l l' g1 hi h1
      have k3 := results_follow (d' := d.mirror.reindex σ) (c := c) (c' := c.map CtrlDict.mirror) hV hr hV hr h3 (k1.mono fun R R' _ _ h => h.2.cl)
      exact ⟨k1.mono fun R R' _ _ h => h.1, ⟨k2, h2⟩, k3⟩
    · simp only [hi]
      exact ⟨rfl, ⟨h1, h2⟩, h3⟩
  stall x x' hx := by
    obtain ⟨-, hx⟩ := hx
    show Option.Rel _ (x.1.results.bind fun R => findStall (geomOf p.cg o.wing).S R.cl) (x'.1.results.bind fun R => findStall (geomOf p'.cg o'.wing).S R.cl)
    generalize x.1.results = r at hx
    generalize x'.1.results = r' at hx
    cases hx with
    | none => exact .none
    | some h => exact findStall_perm σ hmax h
  zero := by simp [Loads.mirror, Loads.zero]
  add := by
    rintro a _ b _ rfl rfl
    simp only [Loads.mirror, Loads.add, Loads.mk.injEq, true_and]
    refine ⟨?_, ?_, ?_, ?_⟩ <;> ring
  lift := by rintro T _ rfl; exact (one_mul _).symm
  moment := by rintro T _ rfl; exact (one_mul _).symm
  given d d' h := mirDict_truthy h
  alpha := by rintro d _ x ⟨rfl, hV, hr⟩; exact ⟨rfl, hV, hr⟩
  angle := by rintro d _ ⟨rfl, -, -⟩; rfl
  elevator := by rintro c _ x rfl; rfl
  deflection := by rintro c _ rfl; exact ⟨rfl, by simp [CtrlDict.truthy, CtrlDict.mirror]⟩
  neutral := by simp [MirCtrl, zeroCtrlDict, CtrlDict.mirror]

/-! ### Calls -/

local notation "𝓢" => Side2 (B := o.backend p simps fuel bad) (B' := o'.backend p' simps fuel bad') (MirStates σ) (MirDict σ) MirCtrl

/-- the answers of the two aircraft -/
def Answer.AlikeMir (cg cg' : V3) : Answer → Answer → Prop
  | .loads T, .loads T' => T' = T.mirror
  | .stall r, .stall r' => Option.Rel (Follow.AnswerAlike (fun _ _ => True) 1) r r'
  | .trim r, .trim r' => r' = r
  | .point Q, .point Q' => Follow.CenterAlike 1 cg cg' Q Q'
  | _, _ => False

theorem mir_call (hO : ObjMir o o' p p' σ) (hmax : ∀ i, ((geomOf p'.cg o'.wing).S (σ i)).clMax = ((geomOf p.cg o.wing).S i).clMax)
    (hS : (o'.wing.map (·.Sw)).getD 0 = (o.wing.map (·.Sw)).getD 0) (hlong : (o'.wing.map (·.long)).getD 0 = (o.wing.map (·.long)).getD 0)
    {what : Analysis} {w : World (o.backend p simps fuel bad)} {w' : World (o'.backend p' simps fuel bad')} (h : 𝓢 w w') (hok : what.NoDerivatives)
    (hb : ∀ L e f, what = .targetLift L e f → Follow.Bad2 (o.backend p simps fuel bad) (o'.backend p' simps fuel bad') (MirStates σ) 1) :
    Outcome (Answer.AlikeMir p.cg p'.cg) (perform (B := o.backend p simps fuel bad) ps p.cg what w).1
      (perform (B := o'.backend p' simps fuel bad') ps p'.cg what w').1 ∧
    𝓢 (perform (B := o.backend p simps fuel bad) ps p.cg what w).2 (perform (B := o'.backend p' simps fuel bad') ps p'.cg what w').2 := by
  have hT := follow_mir (bad := bad) (bad' := bad') (simps := simps) (fuel := fuel) (ps := ps) hO hmax
  have done : ∀ {α β : Type} {Q : α → β → Prop} {m : Act (World (o.backend p simps fuel bad)) α} {m' : Act (World (o'.backend p' simps fuel bad')) β}
      {f : α → Answer} {f' : β → Answer}, Lock 𝓢 Q m m' → (∀ a b, Q a b → Answer.AlikeMir p.cg p'.cg (f a) (f' b)) →
      Outcome (Answer.AlikeMir p.cg p'.cg) ((m >>= fun r => pure (f r)) w).1 ((m' >>= fun r => pure (f' r)) w').1 ∧
      𝓢 ((m >>= fun r => pure (f r)) w).2 ((m' >>= fun r => pure (f' r)) w').2 :=
    fun hm hf => (hm.bind fun r r' h => Lock.pure (hf r r' h)) w w' h
  cases what with
  | solve f => exact done (hT.solveFile2 f) fun _ _ h => h
  | stability => exact hok.elim
  | damping => exact hok.elim
  | control => exact hok.elim
  | derivatives f => exact hok.elim
  | stallOnset f n => exact done (hT.onsetFile2 f n) fun _ _ h => h
  | stallAirspeed W e f n k =>
    refine done (hT.airspeed2 ?_ ?_ W e f n k) fun _ _ h => h
    · rintro d _ x ⟨rfl, hV, hr⟩
      exact ⟨rfl, rfl, hr⟩
    · rintro d _ ⟨rfl, hV, hr⟩; rfl
  | targetLift L e f =>
    have k := hT.target2 (hb L e f rfl) one_ne_zero L e f
    rw [one_mul] at k
    exact done k fun _ _ h => h
  | pitchTrim L M e f =>
    obtain ⟨k1, k2⟩ := hT.trim2 one_pos L M e f h (.inr rfl)
    rw [one_mul, one_mul, one_mul] at k1 k2
    show Outcome _ ((pitchTrim (B := o.backend p simps fuel bad) ps L M e f >>= fun r => pure (Answer.trim r)) w).1
      ((pitchTrim (B := o'.backend p' simps fuel bad') ps L M e f >>= fun r => pure (Answer.trim r)) w').1 ∧
      𝓢 ((pitchTrim (B := o.backend p simps fuel bad) ps L M e f >>= fun r => pure (Answer.trim r)) w).2
      ((pitchTrim (B := o'.backend p' simps fuel bad') ps L M e f >>= fun r => pure (Answer.trim r)) w').2
    rw [bind_def, bind_def]
    revert k1 k2
    generalize pitchTrim (B := o.backend p simps fuel bad) ps L M e f w = x
    generalize pitchTrim (B := o'.backend p' simps fuel bad') ps L M e f w' = x'
    intro k1 k2
    rcases x with ⟨e | a, w1⟩ <;> rcases x' with ⟨e' | a', w1'⟩
    · exact ⟨k1, k2⟩
    · exact k1.elim
    · exact k1.elim
    · exact ⟨k1, k2⟩
  | aeroCenter f =>
    refine done (hT.center2 one_ne_zero one_ne_zero (one_mul 1).symm (hlong.trans (one_mul _).symm) ?_ ?_ p.cg p'.cg f) fun _ _ h => h
    · rintro T _ rfl; exact ⟨(one_mul _).symm, (one_mul _).symm⟩
    · rintro d _ ⟨rfl, hV, hr⟩
      rw [one_mul]
      unfold dynPress
      have e : (o'.backend p' simps fuel bad').Sw = (o.backend p simps fuel bad).Sw := hS
      rw [e]
      rfl

/-- solves with an angle of attack that is `nan`/`inf` (what they do is a parameter of the model) give the same lift too -/
def MirBad {n n' : ℕ} (σ : Fin n ≃ Fin n') (bad : Act (LLState (Fin n) × List (PropSlot (Fin n))) (Option Loads))
    (bad' : Act (LLState (Fin n') × List (PropSlot (Fin n'))) (Option Loads)) : Prop :=
  Lock (MirStates σ) (fun r r' => r'.map (·.FL) = r.map fun T => 1 * T.FL) bad bad'

/-- calls in any order -/
theorem mir_history (hO : ObjMir o o' p p' σ) (hmax : ∀ i, ((geomOf p'.cg o'.wing).S (σ i)).clMax = ((geomOf p.cg o.wing).S i).clMax)
    (hS : (o'.wing.map (·.Sw)).getD 0 = (o.wing.map (·.Sw)).getD 0) (hlong : (o'.wing.map (·.long)).getD 0 = (o.wing.map (·.long)).getD 0)
    (hslots : List.Forall₂ (SlotMir fun a b => b = a) (o.slots.getD []) (o'.slots.getD []))
    (hist : List (Request (Fin (sectionsOf o.wing)))) (k : Request (Fin (sectionsOf o.wing)))
    (hk : ∀ r ∈ hist ++ [k], r.Conditions ∧ r.what.NoDerivatives ∧ ∀ L e f, r.what = .targetLift L e f → MirBad σ bad bad') :
    let call (r : Request (Fin (sectionsOf o.wing))) : AnyCall (o.backend p simps fuel bad) := ⟨r.what, r.aero, r.ctrl, r.ps⟩
    let call' (r : Request (Fin (sectionsOf o.wing))) : AnyCall (o'.backend p' simps fuel bad') :=
      ⟨r.what, r.aero.map fun d => d.mirror.reindex σ, r.ctrl.map CtrlDict.mirror, r.ps⟩
    let r := (call k).run p.cg (afterCalls p.cg (o.fresh p simps fuel bad none none) (hist.map call))
    let r' := (call' k).run p'.cg (afterCalls p'.cg (o'.fresh p' simps fuel bad' none none) (hist.map call'))
    Outcome (Answer.AlikeMir p.cg p'.cg) r.1 r'.1 ∧ r'.2.aero = r.2.aero.map (fun d => d.mirror.reindex σ) ∧ r'.2.ctrl = r.2.ctrl.map CtrlDict.mirror := by
  intro call call'
  have step : ∀ (w : World (o.backend p simps fuel bad)) (w' : World (o'.backend p' simps fuel bad')) (q : Request (Fin (sectionsOf o.wing))),
      q ∈ hist ++ [k] → MirStates σ w.st w'.st →
      Outcome (Answer.AlikeMir p.cg p'.cg) ((call q).run p.cg w).1 ((call' q).run p'.cg w').1 ∧
      𝓢 ((call q).run p.cg w).2 ((call' q).run p'.cg w').2 := by
    intro w w' q hq hs
    obtain ⟨⟨d, hd, hV, hr⟩, h1, h3⟩ := hk q hq
    refine mir_call hO hmax hS hlong (w := { w with aero := q.aero, ctrl := q.ctrl }) 
      (w' := { w' with aero := q.aero.map fun d => d.mirror.reindex σ, ctrl := q.ctrl.map CtrlDict.mirror }) ?_ h1 fun L e f h => h3 L e f h
    refine ⟨⟨d, _, hd, ?_, rfl, hV, hr⟩, ?_, hs⟩
    · show q.aero.map _ = _
      rw [hd]; rfl
    · show Option.Rel _ q.ctrl (q.ctrl.map CtrlDict.mirror)
      cases q.ctrl with
      | none => exact .none
      | some c => exact .some rfl
  have run : ∀ (l : List (Request (Fin (sectionsOf o.wing)))) (w : World (o.backend p simps fuel bad)) (w' : World (o'.backend p' simps fuel bad')),
      MirStates σ w.st w'.st → (∀ q ∈ l, q ∈ hist ++ [k]) →
      MirStates σ (afterCalls p.cg w (l.map call)).st (afterCalls p'.cg w' (l.map call')).st := by
    intro l
    induction l with
    | nil => intro w w' h _; exact h
    | cons q t ih => exact fun w w' h hq => ih _ _ (step w w' q (hq q (by simp)) h).2.st fun r hr => hq r (by simp [hr])
  have hfin := step _ _ k (by simp) (run hist (o.fresh p simps fuel bad none none) (o'.fresh p' simps fuel bad' none none)
    ⟨⟨⟨fun _ => rfl, fun _ => rfl⟩, hslots⟩, .none⟩ fun q hq => by simp [hq])
  obtain ⟨a1, ⟨d, d', b1, b2, rfl, -, -⟩, b3, -⟩ := hfin
  refine ⟨a1, ?_, ?_⟩
  · exact b2.trans (by rw [b1]; rfl)
  · revert b3
    generalize ((call k).run p.cg _).2.ctrl = c
    generalize ((call' k).run p'.cg _).2.ctrl = c'
    intro b3
    cases b3 with
    | none => rfl
    | some h => rw [h]; rfl

end

end Verif
