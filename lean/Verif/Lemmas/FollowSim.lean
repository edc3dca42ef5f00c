import Verif.Lemmas.Follow
import Verif.Lemmas.Relabel
import Verif.Thm.CgFree
import Verif.Spec.Similar

/-! Helper lemmas: the calls of two aircraft one of which is larger, faster, elsewhere or named differently. -/

namespace Verif
open V3 Act

/-- where `stall_onset` says the section is -/
noncomputable def Section.stallInfo (S : Section) : StallInfo := ⟨S.name, if S.name.toList.take 5 = "right".toList then S.sp else 1 - S.sp⟩

theorem findStall_eq {n : ℕ} (S : Fin n → Section) (cl : Fin n → ℝ) : findStall S cl = ((stalledSections S cl).head?).map fun i => (S i).stallInfo := by
  unfold findStall
  cases stalledSections S cl <;> rfl

/-- the stalls of two aircraft with the same sections in the same order -/
theorem findStall_follow {n n' : ℕ} {S : Fin n → Section} {S' : Fin n' → Section} {cl : Fin n → ℝ} {cl' : Fin n' → ℝ} (σ : Fin n ≃ Fin n')
    (ho : ∀ i, (σ i).val = i.val) (hmax : ∀ i, (S' (σ i)).clMax = (S i).clMax) (hcl : ∀ i, cl' (σ i) = cl i) {Y : StallInfo → StallInfo → Prop}
    (hY : ∀ i, Y (S i).stallInfo (S' (σ i)).stallInfo) : Option.Rel Y (findStall S cl) (findStall S' cl') := by
  have hn : n = n' := by simpa using Fintype.card_congr σ
  subst hn
  obtain rfl : σ = Equiv.refl _ := Equiv.ext fun i => Fin.ext (ho i)
  have e : stalledSections S' cl' = stalledSections S cl := by
    unfold stalledSections
    simp only [Equiv.refl_apply] at hmax hcl
    simp only [hmax, hcl]
  rw [findStall_eq, findStall_eq, e]
  cases (stalledSections S cl).head? with
  | none => exact .none
  | some i => exact .some (hY i)

/-- the states of the two objects: as for `solve`, and the section lift coefficients of the last solve are the same -/
def SimStates {ι ι' : Type} (s : Scl) (P : PropSt → PropSt → Prop) (σ : ι ≃ ι') (st : LLState ι × List (PropSlot ι))
    (st' : LLState ι' × List (PropSlot ι')) : Prop :=
  StSim s P σ st st' ∧ Option.Rel (fun R R' => ∀ i, R'.cl (σ i) = R.cl i) st.1.results st'.1.results

/-- the two aircraft and their objects -/
structure SimCraft (s : Scl) (Y : StallInfo → StallInfo → Prop) (o o' : Analyser) (p p' : Plane) (σ : Fin (sectionsOf o.wing) ≃ Fin (sectionsOf o'.wing)) :
    Prop where
  e : s.e = 0
  obj : ObjSim s o o' p p' σ
  order : ∀ i, (σ i).val = i.val
  wing : o.wing.isSome = true → ∀ (d : AeroDict (Fin (sectionsOf o.wing))), d.truthy = true → ∀ (c : Option CtrlDict) (st st' : LLState _),
    CtrlImage σ st.ctrl st'.ctrl →
    Outcome (fun R R' => R'.total = R.total.sim s ∧ SameSections σ R R') (llSolve (geomOf p.cg o.wing) st "linear" (some d) c).1
      (llSolve (geomOf p'.cg o'.wing) st' "linear" (some (d.similar s.l s.k s.m σ)) c).1 ∧
    CtrlImage σ (llSolve (geomOf p.cg o.wing) st "linear" (some d) c).2.ctrl
      (llSolve (geomOf p'.cg o'.wing) st' "linear" (some (d.similar s.l s.k s.m σ)) c).2.ctrl
  clMax : ∀ i, ((geomOf p'.cg o'.wing).S (σ i)).clMax = ((geomOf p.cg o.wing).S i).clMax
  info : ∀ i, Y ((geomOf p.cg o.wing).S i).stallInfo ((geomOf p'.cg o'.wing).S (σ i)).stallInfo
  Sw : (o'.wing.map (·.Sw)).getD 0 = s.l ^ 2 * (o.wing.map (·.Sw)).getD 0
  lat : (o'.wing.map (·.lat)).getD 0 = s.l * (o.wing.map (·.lat)).getD 0
  long : (o'.wing.map (·.long)).getD 0 = s.l * (o.wing.map (·.long)).getD 0

/-- the flight conditions -/
def SimDict {ι ι' : Type} (s : Scl) (σ : ι ≃ ι') (d : AeroDict ι) (d' : AeroDict ι') : Prop :=
  d' = d.similar s.l s.k s.m σ ∧ d.Vmag.isSome = true ∧ d.rho.isSome = true

theorem arrOf_given {ι : Type} [Fintype ι] [DecidableEq ι] (G : LLGeom ι) {d : AeroDict ι} (hV : d.Vmag.isSome = true) (hr : d.rho.isSome = true) : ∃ a, arrOf G d = .ok a := by
  obtain ⟨V, hV⟩ := Option.isSome_iff_exists.1 hV
  obtain ⟨r, hr⟩ := Option.isSome_iff_exists.1 hr
  unfold arrOf
  cases d.localState with
  | none => rw [hV, hr]; exact ⟨_, rfl⟩
  | some f => exact ⟨_, rfl⟩

/-- the stored results after the wing parts of two solves -/
theorem results_follow {n n' : ℕ} {G : LLGeom (Fin n)} {G' : LLGeom (Fin n')} {σ : Fin n ≃ Fin n'} {d : AeroDict (Fin n)} {d' : AeroDict (Fin n')}
    {c c' : Option CtrlDict} {st : LLState (Fin n)} {st' : LLState (Fin n')} (hV : d.Vmag.isSome = true) (hr : d.rho.isSome = true)
    (hV' : d'.Vmag.isSome = true) (hr' : d'.rho.isSome = true)
    (h0 : Option.Rel (fun R R' => ∀ i, R'.cl (σ i) = R.cl i) st.results st'.results)
    (h : Outcome (fun R R' => ∀ i, R'.cl (σ i) = R.cl i) (llSolve G st "linear" (some d) c).1 (llSolve G' st' "linear" (some d') c').1) :
    Option.Rel (fun R R' => ∀ i, R'.cl (σ i) = R.cl i) (llSolve G st "linear" (some d) c).2.results (llSolve G' st' "linear" (some d') c').2.results := by
  have ht : ∀ {m : ℕ} {d : AeroDict (Fin m)}, d.Vmag.isSome = true → d.truthy = true := by
    intro m d hV
    obtain ⟨V, hV⟩ := Option.isSome_iff_exists.1 hV
    simp [AeroDict.truthy, hV]
  rw [llSolve_results_val _ _ _ _ (ht hV), llSolve_results_val _ _ _ _ (ht hV')]
  obtain ⟨a, ha⟩ := arrOf_given G hV hr
  obtain ⟨a', ha'⟩ := arrOf_given G' hV' hr'
  rw [ha, ha']
  simp only
  revert h
  generalize (llSolve G st "linear" (some d) c).1 = x
  generalize (llSolve G' st' "linear" (some d') c').1 = x'
  intro h
  rcases x with e | R <;> rcases x' with e' | R'
  · have h : e = e' := h
    subst h
    cases e <;> first | exact h0 | exact .none
  · exact h.elim
  · exact h.elim
  · exact .some h

section
variable {s : Scl} {Y : StallInfo → StallInfo → Prop} {o o' : Analyser} {p p' : Plane} {σ : Fin (sectionsOf o.wing) ≃ Fin (sectionsOf o'.wing)}
  {P : PropSt → PropSt → Prop} {simps : List ℝ → List ℝ → ℝ} {fuel : ℕ} {bad : _} {bad' : _} {ps ps' : Option PropDict}

theorem simDict_truthy {ι ι' : Type} [Fintype ι] [DecidableEq ι] [Fintype ι'] [DecidableEq ι'] {σ : ι ≃ ι'} {d : AeroDict ι} {d' : AeroDict ι'}
    (h : SimDict s σ d d') : d.truthy = true ∧ d'.truthy = true := by
  obtain ⟨rfl, hV, hr⟩ := h
  obtain ⟨V, hV⟩ := Option.isSome_iff_exists.1 hV
  have : d.truthy = true := by simp [AeroDict.truthy, hV]
  exact ⟨this, by rw [similar_truthy, this]⟩

theorem flowSim_of {ι ι' : Type} [Fintype ι] [DecidableEq ι] [Fintype ι'] [DecidableEq ι'] {σ : ι ≃ ι'} {d : AeroDict ι} {d' : AeroDict ι'}
    (h : SimDict s σ d d') : FlowSim s d d' := by
  obtain ⟨g1, g2⟩ := simDict_truthy h
  obtain ⟨rfl, -, -⟩ := h
  exact ⟨g1, g2, rfl, rfl, rfl, rfl⟩

theorem sim_lift (he : s.e = 0) (T : Loads) : (T.sim s).MY = s.a * s.l * T.MY := by simp [Loads.sim, he]

theorem follow_sim (hC : SimCraft s Y o o' p p' σ)
    (hR : ∀ d d', SimDict s σ d d' → RunsAlike simps fuel s P d d' (ps.getD []) (ps'.getD [])) :
    Follow (o.backend p simps fuel bad) (o'.backend p' simps fuel bad') (SimStates s P σ) (SimDict s σ) (fun c c' => c' = c)
      (fun T T' => T' = T.sim s) Y s.a (s.a * s.l) ps ps' where
  props := by show (!p'.props.isEmpty) = !p.props.isEmpty; rw [hC.obj.props]
  wings := by show (!p'.wings.isEmpty) = !p.wings.isEmpty; rw [hC.obj.wings]
  prop d d' hd := by
    rintro ⟨l, sl⟩ ⟨l', sl'⟩ ⟨⟨h1, h2⟩, h3⟩
    simp only at h1 h2 h3
    simp only [Analyser.backend, Analyser.backendOf]
    rw [hC.obj.slots]
    by_cases hsome : o.slots.isSome = true
    · simp only [hsome, if_true]
      have := propsSolve_sim σ (flowSim_of hd) (hR d d' hd) (pts := if !p.wings.isEmpty then pointsOf o.wing else none)
        (pts' := if !p'.wings.isEmpty then pointsOf o'.wing else none) (by rw [hC.obj.wings]; split_ifs; exacts [hC.obj.points, rfl])
        (slotSim_withCg p.cg h2)
      rw [← hC.obj.cg] at this
      revert this
      generalize propsSolve simps fuel _ (some d) (ps.getD []) _ = A
      generalize propsSolve simps fuel _ (some d') (ps'.getD []) _ = A'
      rintro ⟨k1, k2⟩
      rcases A with ⟨e | r, s1⟩ <;> rcases A' with ⟨e' | r', s1'⟩ <;> simp [Except.map] at k1
      · exact ⟨k1.symm, ⟨h1, k2⟩, h3⟩
      · subst k1
        refine ⟨⟨rfl, ?_⟩, ⟨h1, k2⟩, h3⟩
        obtain ⟨r1, r2⟩ := r
        cases r2 with
        | none => exact .none
        | some f =>
          refine .some ?_
          rintro e e' ⟨rfl, hV, hr⟩
          exact ⟨rfl, hV, hr⟩
    · simp only [hsome]
      exact ⟨rfl, ⟨h1, h2⟩, h3⟩
  wing d d' c c' hd hc := by
    rintro ⟨l, sl⟩ ⟨l', sl'⟩ ⟨⟨h1, h2⟩, h3⟩
    have hcc : c' = c := by cases hc with
      | none => rfl
      | some h => rw [h]
    subst hcc
    simp only at h1 h2 h3
    simp only [Analyser.backend, Analyser.backendOf]
    rw [hC.obj.wing]
    by_cases hi : o.wing.isSome = true
    · simp only [hi, if_true]
      obtain ⟨g1, g2⟩ := simDict_truthy hd
      obtain ⟨rfl, hV, hr⟩ := hd
      obtain ⟨k1, k2⟩ := hC.wing hi d g1 c' l l' h1
      have k3 := results_follow (c := c') (c' := c') hV hr (by obtain ⟨V, hV⟩ := Option.isSome_iff_exists.1 hV; simp [AeroDict.similar, AeroDict.divRates, AeroDict.reindex, AeroDict.faster, AeroDict.scaleSpeed, AeroDict.scaleDensity, hV])
        (by obtain ⟨V, hV⟩ := Option.isSome_iff_exists.1 hr; simp [AeroDict.similar, AeroDict.divRates, AeroDict.reindex, AeroDict.faster, AeroDict.scaleSpeed, AeroDict.scaleDensity, hV])
        h3 (k1.mono fun R R' _ _ h => h.2.cl)
      exact ⟨k1.mono fun R R' _ _ h => h.1, ⟨k2, h2⟩, k3⟩
    · simp only [hi]
      exact ⟨rfl, ⟨h1, h2⟩, h3⟩
  stall x x' hx := by
    obtain ⟨-, hx⟩ := hx
    show Option.Rel Y (x.1.results.bind fun R => findStall (geomOf p.cg o.wing).S R.cl) (x'.1.results.bind fun R => findStall (geomOf p'.cg o'.wing).S R.cl)
    generalize x.1.results = r at hx
    generalize x'.1.results = r' at hx
    cases hx with
    | none => exact .none
    | some h => exact findStall_follow σ hC.order hC.clMax h hC.info
  zero := Loads.sim_zero.symm
  add := by rintro a _ b _ rfl rfl; exact Loads.sim_add a b
  lift := by rintro T _ rfl; rfl
  moment := by rintro T _ rfl; exact sim_lift hC.e T
  given d d' h := simDict_truthy h
  alpha := by rintro d _ x ⟨rfl, hV, hr⟩; exact ⟨rfl, hV, hr⟩
  angle := by rintro d _ ⟨rfl, -, -⟩; rfl
  elevator := by rintro c _ x rfl; rfl
  deflection := by rintro c _ rfl; exact ⟨rfl, rfl⟩
  neutral := rfl

/-! ### Calls -/

local notation "𝓢" => Side2 (B := o.backend p simps fuel bad) (B' := o'.backend p' simps fuel bad') (SimStates s P σ) (SimDict s σ) (fun c c' => c' = c)

theorem side_like {w : World (o.backend p simps fuel bad)} {w' : World (o'.backend p' simps fuel bad')} :
    𝓢 w w' ↔ LikeWorld s.l s.k s.m σ (SimStates s P σ) w w' := by
  constructor
  · rintro ⟨⟨d, d', h1, h2, rfl, hV, hr⟩, hc, hst⟩
    obtain ⟨V, hV⟩ := Option.isSome_iff_exists.1 hV
    obtain ⟨r, hr⟩ := Option.isSome_iff_exists.1 hr
    refine ⟨⟨d, V, r, h1, hV, hr, h2⟩, ?_, hst⟩
    generalize w.ctrl = c at hc
    generalize w'.ctrl = c' at hc
    cases hc with
    | none => rfl
    | some h => rw [h]
  · rintro ⟨⟨d, V, r, h1, hV, hr, h2⟩, hc, hst⟩
    refine ⟨⟨d, _, h1, h2, rfl, by rw [hV]; rfl, by rw [hr]; rfl⟩, ?_, hst⟩
    rw [hc]
    cases w.ctrl with
    | none => exact .none
    | some c => exact .some rfl

theorem sim_scale (he : s.e = 0) (T : Loads) : T.sim s = T.scale (s.m * s.k ^ 2 * s.l ^ 2) (s.m * s.k ^ 2 * s.l ^ 3) := by
  ext <;> simp [Loads.sim, Loads.scale, he, Scl.a] <;> first | ring_nf | skip
  all_goals exact Or.inl trivial

/-- the answers of the two aircraft -/
def Answer.Alike (s : Scl) (Y : StallInfo → StallInfo → Prop) (cg cg' : V3) : Answer → Answer → Prop
  | .loads T, .loads T' => T' = T.sim s
  | .stab D, .stab D' => D' = D
  | .damp D, .damp D' => D' = D
  | .cont D, .cont D' => D' = D
  | .all D, .all D' => D' = D
  | .stall r, .stall r' => Option.Rel (Follow.AnswerAlike Y s.a) r r'
  | .trim r, .trim r' => r' = r
  | .point Q, .point Q' => Follow.CenterAlike s.l cg cg' Q Q'
  | _, _ => False

theorem sim_call (hC : SimCraft s Y o o' p p' σ)
    (hR : ∀ d d', SimDict s σ d d' → RunsAlike simps fuel s P d d' (ps.getD []) (ps'.getD [])) {what : Analysis}
    {w : World (o.backend p simps fuel bad)} {w' : World (o'.backend p' simps fuel bad')} (h : 𝓢 w w')
    (hok : what.Scales s.l s.k s.m (ctrlGiven w = true))
    (hb : ∀ L e f, what = .targetLift L e f → Follow.Bad2 (o.backend p simps fuel bad) (o'.backend p' simps fuel bad') (SimStates s P σ) s.a) :
    Outcome (Answer.Alike s Y p.cg p'.cg) (perform (B := o.backend p simps fuel bad) ps p.cg what w).1
      (perform (B := o'.backend p' simps fuel bad') ps' p'.cg (what.similar s.l s.k s.m) w').1 ∧
    𝓢 (perform (B := o.backend p simps fuel bad) ps p.cg what w).2
      (perform (B := o'.backend p' simps fuel bad') ps' p'.cg (what.similar s.l s.k s.m) w').2 := by
  have hT := follow_sim (bad := bad) (bad' := bad') hC hR
  have hl := s.hl.ne'
  have hk := s.hk.ne'
  have hs : Lock (LikeWorld (B := o.backend p simps fuel bad) (B' := o'.backend p' simps fuel bad') s.l s.k s.m σ (SimStates s P σ))
      (SimLoad s.l s.k s.m) (muSolve ps) (muSolve ps') := by
    intro x x' hx
    obtain ⟨k1, k2⟩ := hT.solve x x' (side_like.2 hx)
    exact ⟨k1.mono fun T T' _ _ e => by rw [SimLoad, ← sim_scale hC.e]; exact e, side_like.1 k2⟩
  have hRef : RefSim s.l (o.backend p simps fuel bad) (o'.backend p' simps fuel bad') := ⟨hT.wings, hC.Sw, hC.lat, hC.long⟩
  have done : ∀ {α β : Type} {Q : α → β → Prop} {m : Act (World (o.backend p simps fuel bad)) α} {m' : Act (World (o'.backend p' simps fuel bad')) β}
      {f : α → Answer} {f' : β → Answer}, Lock 𝓢 Q m m' → (∀ a b, Q a b → Answer.Alike s Y p.cg p'.cg (f a) (f' b)) →
      Outcome (Answer.Alike s Y p.cg p'.cg) ((m >>= fun r => pure (f r)) w).1 ((m' >>= fun r => pure (f' r)) w').1 ∧
      𝓢 ((m >>= fun r => pure (f r)) w).2 ((m' >>= fun r => pure (f' r)) w').2 :=
    fun hm hf => (hm.bind fun r r' h => Lock.pure (hf r r' h)) w w' h
  have back : ∀ {α β : Type} {Q : α → β → Prop} {m : Act (World (o.backend p simps fuel bad)) α} {m' : Act (World (o'.backend p' simps fuel bad')) β},
      Lock (LikeWorld s.l s.k s.m σ (SimStates s P σ)) Q m m' → Lock 𝓢 Q m m' :=
    fun hm x x' hx => ⟨(hm x x' (side_like.1 hx)).1, side_like.2 (hm x x' (side_like.1 hx)).2⟩
  have ha : s.m ≠ 0 → s.a ≠ 0 := fun hm => mul_ne_zero (mul_ne_zero hm (pow_ne_zero 2 hk)) (pow_ne_zero 2 hl)
  cases what with
  | solve f => exact done (hT.solveFile2 f) fun _ _ h => h
  | stability => exact done (back (like_stab hs hRef hl (ha hok))) fun _ _ h => h
  | damping => exact done (back (like_damp hs hRef hl (ha hok))) fun _ _ h => h
  | control => exact done (back (like_cont hs hRef hl (ha hok))) fun _ _ h => h
  | derivatives f =>
    refine done (Q := fun a b => b = a) ?_ fun _ _ h => h
    show Lock 𝓢 _ (derivatives ps f) (derivatives ps' f)
    unfold derivatives
    refine Follow.ite2 (by rw [hRef.wings]) (Follow.bindEq2 (back (like_stab hs hRef hl (ha hok))) fun a =>
      Follow.bindEq2 (back (like_cont hs hRef hl (ha hok))) fun b => Follow.bindEq2 (back (like_damp hs hRef hl (ha hok))) fun c =>
        Follow.bindU2 (Follow.write2 _ _ _) (Lock.pure rfl)) ?_
    cases f with
    | none => exact Lock.raise _
    | some f => exact Follow.bindU2 (Follow.write2 _ _ _) (Lock.pure rfl)
  | stallOnset f n => exact done (hT.onsetFile2 f n) fun _ _ h => h
  | stallAirspeed W e f n k =>
    obtain ⟨e1, e2, e3⟩ := hok
    have ea : s.a = 1 := by simp [Scl.a, e1, e2, e3]
    have hT1 := hT
    rw [ea] at hT1
    refine done (hT1.airspeed2 ?_ ?_ W e f n k) fun _ _ h => ?_
    · rintro d _ x ⟨rfl, hV, hr⟩
      refine ⟨?_, rfl, hr⟩
      simp [AeroDict.similar, AeroDict.divRates, AeroDict.reindex, AeroDict.faster, AeroDict.scaleSpeed, AeroDict.scaleDensity, e2]
    · rintro d _ ⟨rfl, hV, hr⟩
      simp [AeroDict.similar, AeroDict.divRates, AeroDict.reindex, AeroDict.faster, AeroDict.scaleSpeed, AeroDict.scaleDensity, e2]
    · unfold Answer.Alike
      rw [ea]
      exact h
  | targetLift L e f => exact done (hT.target2 (hb L e f rfl) (ha hok) L e f) fun _ _ h => h
  | pitchTrim L M e f =>
    obtain ⟨e1, e2, e3⟩ := hok
    have hT1 := hT
    rw [e1, mul_one] at hT1
    have hpos : 0 < s.a := mul_pos (mul_pos e2 (pow_pos s.hk 2)) (pow_pos s.hl 2)
    obtain ⟨k1, k2⟩ := hT1.trim2 hpos L M e f h (e3.imp id fun ⟨x, y⟩ => by simp [Scl.a, e1, x, y])
    show Outcome _ ((pitchTrim (B := o.backend p simps fuel bad) ps L M e f >>= fun r => pure (Answer.trim r)) w).1
      ((pitchTrim (B := o'.backend p' simps fuel bad') ps' (s.a * L) (s.a * M) (s.a * e) f >>= fun r => pure (Answer.trim r)) w').1 ∧
      𝓢 ((pitchTrim (B := o.backend p simps fuel bad) ps L M e f >>= fun r => pure (Answer.trim r)) w).2
      ((pitchTrim (B := o'.backend p' simps fuel bad') ps' (s.a * L) (s.a * M) (s.a * e) f >>= fun r => pure (Answer.trim r)) w').2
    rw [bind_def, bind_def]
    revert k1 k2
    generalize pitchTrim (B := o.backend p simps fuel bad) ps L M e f w = x
    generalize pitchTrim (B := o'.backend p' simps fuel bad') ps' (s.a * L) (s.a * M) (s.a * e) f w' = x'
    intro k1 k2
    rcases x with ⟨e | a, w1⟩ <;> rcases x' with ⟨e' | a', w1'⟩
    · exact ⟨k1, k2⟩
    · exact k1.elim
    · exact k1.elim
    · exact ⟨k1, k2⟩
  | aeroCenter f =>
    refine done (hT.center2 hl (ha hok) rfl hC.long ?_ ?_ p.cg p'.cg f) fun _ _ h => h
    · rintro T _ rfl; exact ⟨rfl, rfl⟩
    · rintro d _ ⟨rfl, hV, hr⟩
      obtain ⟨V, hV⟩ := Option.isSome_iff_exists.1 hV
      obtain ⟨r, hr⟩ := Option.isSome_iff_exists.1 hr
      simp only [dynPress, AeroDict.similar, AeroDict.divRates, AeroDict.reindex, AeroDict.faster, AeroDict.scaleSpeed, AeroDict.scaleDensity, hV, hr,
        Option.map_some, Option.getD_some, hRef.Sw, Scl.a]
      ring

/-- solves with an angle of attack that is `nan`/`inf` (what they do is a parameter of the model) obey the similarity law too -/
def SimBad {n n' : ℕ} (s : Scl) (P : PropSt → PropSt → Prop) (σ : Fin n ≃ Fin n') (bad : Act (LLState (Fin n) × List (PropSlot (Fin n))) (Option Loads))
    (bad' : Act (LLState (Fin n') × List (PropSlot (Fin n'))) (Option Loads)) : Prop :=
  Lock (SimStates s P σ) (fun r r' => r'.map (·.FL) = r.map fun T => s.a * T.FL) bad bad'

/-- calls in any order -/
theorem sim_history (hC : SimCraft s Y o o' p p' σ) (F : Request (Fin (sectionsOf o.wing)) → Request (Fin (sectionsOf o'.wing)))
    (hF : ∀ r, (F r).what = r.what.similar s.l s.k s.m ∧ (F r).aero = r.aero.map (·.similar s.l s.k s.m σ) ∧ (F r).ctrl = r.ctrl)
    (hslots : List.Forall₂ (SlotSim s P) (o.slots.getD []) (o'.slots.getD []))
    (hist : List (Request (Fin (sectionsOf o.wing)))) (k : Request (Fin (sectionsOf o.wing)))
    (hk : ∀ r ∈ hist ++ [k], r.Conditions ∧ r.what.Scales s.l s.k s.m r.Controls ∧
      (∀ d d', SimDict s σ d d' → RunsAlike simps fuel s P d d' (r.ps.getD []) ((F r).ps.getD [])) ∧
      ∀ L e f, r.what = .targetLift L e f → SimBad s P σ bad bad') :
    let call (r : Request (Fin (sectionsOf o.wing))) : AnyCall (o.backend p simps fuel bad) := ⟨r.what, r.aero, r.ctrl, r.ps⟩
    let call' (r : Request (Fin (sectionsOf o.wing))) : AnyCall (o'.backend p' simps fuel bad') := ⟨(F r).what, (F r).aero, (F r).ctrl, (F r).ps⟩
    let r := (call k).run p.cg (afterCalls p.cg (o.fresh p simps fuel bad none none) (hist.map call))
    let r' := (call' k).run p'.cg (afterCalls p'.cg (o'.fresh p' simps fuel bad' none none) (hist.map call'))
    Outcome (Answer.Alike s Y p.cg p'.cg) r.1 r'.1 ∧ r'.2.aero = r.2.aero.map (·.similar s.l s.k s.m σ) ∧ r'.2.ctrl = r.2.ctrl := by
  intro call call'
  have step : ∀ (w : World (o.backend p simps fuel bad)) (w' : World (o'.backend p' simps fuel bad')) (q : Request (Fin (sectionsOf o.wing))),
      q ∈ hist ++ [k] → SimStates s P σ w.st w'.st →
      Outcome (Answer.Alike s Y p.cg p'.cg) ((call q).run p.cg w).1 ((call' q).run p'.cg w').1 ∧
      𝓢 ((call q).run p.cg w).2 ((call' q).run p'.cg w').2 := by
    intro w w' q hq hs
    obtain ⟨⟨d, hd, hV, hr⟩, h1, h2, h3⟩ := hk q hq
    obtain ⟨f1, f2, f3⟩ := hF q
    have e : (call' q).run p'.cg w' = perform (B := o'.backend p' simps fuel bad') (F q).ps p'.cg (q.what.similar s.l s.k s.m)
        { w' with aero := (F q).aero, ctrl := (F q).ctrl } := by
      show perform (B := o'.backend p' simps fuel bad') (F q).ps p'.cg (F q).what _ = _
      rw [f1]
    rw [e]
    refine sim_call hC h2 (w := { w with aero := q.aero, ctrl := q.ctrl }) ?_ ?_ fun L e f h => h3 L e f h
    · refine ⟨⟨d, _, hd, ?_, rfl, hV, hr⟩, ?_, hs⟩
      · show (F q).aero = _
        rw [f2, hd]; rfl
      · show Option.Rel _ q.ctrl (F q).ctrl
        rw [f3]
        cases q.ctrl with
        | none => exact .none
        | some c => exact .some rfl
    · refine cast (congrArg (q.what.Scales s.l s.k s.m) (propext ?_)) h1
      show q.Controls ↔ ctrlGiven _ = true
      unfold ctrlGiven Request.Controls
      cases h : q.ctrl <;> simp [h]
  have run : ∀ (l : List (Request (Fin (sectionsOf o.wing)))) (w : World (o.backend p simps fuel bad)) (w' : World (o'.backend p' simps fuel bad')),
      SimStates s P σ w.st w'.st → (∀ q ∈ l, q ∈ hist ++ [k]) →
      SimStates s P σ (afterCalls p.cg w (l.map call)).st (afterCalls p'.cg w' (l.map call')).st := by
    intro l
    induction l with
    | nil => intro w w' h _; exact h
    | cons q t ih => exact fun w w' h hq => ih _ _ (step w w' q (hq q (by simp)) h).2.st fun r hr => hq r (by simp [hr])
  have hfin := step _ _ k (by simp) (run hist (o.fresh p simps fuel bad none none) (o'.fresh p' simps fuel bad' none none)
    ⟨⟨⟨fun _ => rfl, fun _ => rfl⟩, hslots⟩, .none⟩ fun q hq => by simp [hq])
  obtain ⟨a1, ⟨d, d', b1, b2, rfl, -, -⟩, b3, -⟩ := hfin
  refine ⟨a1, ?_, ?_⟩
  · exact b2.trans (by rw [b1]; rfl)
  · revert b3
    generalize ((call k).run p.cg _).2.ctrl = c
    generalize ((call' k).run p'.cg _).2.ctrl = c'
    intro b3
    cases b3 with
    | none => rfl
    | some h => rw [h]

theorem wing_of_section {w : Option WingPart} (i : Fin (sectionsOf w)) : w.isSome = true := by
  cases w with
  | none => exact i.elim0
  | some w => rfl

theorem simCraft_enlarge {l k : ℝ} (hl : 0 < l) (hk : 0 < k) (m : ℝ) {table : String → ℝ → ℝ} {mem : String → ℕ → ℕ → Option ℝ} {p : Plane} {o o' : Analyser}
    (ho : openMachUp table mem p = .ok o) (ho' : openMachUp table mem (p.enlarge l) = .ok o') :
    ∃ σ : Fin (sectionsOf o.wing) ≃ Fin (sectionsOf o'.wing), SimCraft (simScl l k m hl hk) Eq o o' p (p.enlarge l) σ ∧
      List.Forall₂ (SlotSim (simScl l k m hl hk) SameButRate) (o.slots.getD []) (o'.slots.getD []) := by
  obtain ⟨σ, g0, hO, hslots, g4⟩ := objSim_enlarge hl hk m ho ho'
  obtain ⟨hw, -⟩ := slots_cases ho
  obtain ⟨hw', -⟩ := slots_cases ho'
  obtain ⟨r1, r2, r3⟩ := refs_enlarge hl hw hw'
  refine ⟨σ, ⟨rfl, hO, g0, fun hw d hd c st st' hst => ?_, fun i => ?_, fun i => ?_, r1, r2, r3⟩, hslots⟩
  · have := llSolve_similar_sections hl hk m σ (g4 hw).1 (g4 hw).2 d hd c hst
    refine ⟨this.1.mono fun R R' _ _ h => ⟨?_, h.2⟩, this.2⟩
    rw [h.1]
  · show ((geomOf (l • p.cg) o'.wing).S (σ i)).clMax = _
    rw [(g4 (wing_of_section i)).1 i]; rfl
  · show _ = Section.stallInfo ((geomOf (l • p.cg) o'.wing).S (σ i))
    rw [(g4 (wing_of_section i)).1 i]; rfl

theorem simCraft_carried (δ : V3) {table : String → ℝ → ℝ} {mem : String → ℕ → ℕ → Option ℝ} {p : Plane} (hc : AllConnected p) {o o' : Analyser}
    (ho : openMachUp table mem p = .ok o) (ho' : openMachUp table mem (p.carried δ) = .ok o') :
    ∃ σ : Fin (sectionsOf o.wing) ≃ Fin (sectionsOf o'.wing), SimCraft (moveScl δ) Eq o o' p (p.carried δ) σ ∧
      List.Forall₂ (SlotSim (moveScl δ) fun st st' => st' = st) (o.slots.getD []) (o'.slots.getD []) := by
  obtain ⟨σ, g0, hO, hslots, g4⟩ := objSim_carried δ hc ho ho'
  obtain ⟨hw, -⟩ := slots_cases ho
  obtain ⟨hw', -⟩ := slots_cases ho'
  obtain ⟨r1, r2, r3⟩ := refs_carried δ hc hw hw'
  refine ⟨σ, ⟨rfl, hO, g0, fun hw d hd c st st' hst => ?_, fun i => ?_, fun i => ?_, r1.trans (by simp [moveScl]), r2.trans (by simp [moveScl]), r3.trans (by simp [moveScl])⟩, hslots⟩
  · have := llSolve_move_sections σ (g4 hw).1 (g4 hw).2 d hd c hst
    rw [← similar_one σ d] at this
    refine ⟨this.1.mono fun R R' _ _ h => ⟨?_, h.2⟩, this.2⟩
    rw [h.1, moveLoads]
  · show ((geomOf (p.cg + δ) o'.wing).S (σ i)).clMax = _
    rw [(g4 (wing_of_section i)).1 i]; rfl
  · show _ = Section.stallInfo ((geomOf (p.cg + δ) o'.wing).S (σ i))
    rw [(g4 (wing_of_section i)).1 i]; rfl

theorem simCraft_relabel {table : String → ℝ → ℝ} {mem : String → ℕ → ℕ → Option ℝ} {p p' : Plane} (h : Relabels p p') {o o' : Analyser}
    (ho : openMachUp table mem p = .ok o) (ho' : openMachUp table mem p' = .ok o') :
    ∃ σ : Fin (sectionsOf o.wing) ≃ Fin (sectionsOf o'.wing), SimCraft (moveScl 0) (fun _ _ => True) o o' p p' σ ∧
      List.Forall₂ (SlotSim (moveScl 0) fun st st' => st' = st) (o.slots.getD []) (o'.slots.getD []) := by
  obtain ⟨σ, g0, hO, hslots, g4⟩ := objSim_relabel h ho ho'
  obtain ⟨hw, -⟩ := slots_cases ho
  obtain ⟨hw', -⟩ := slots_cases ho'
  obtain ⟨r1, r2, r3⟩ := refs_relabel h hw hw'
  refine ⟨σ, ⟨rfl, hO, g0, fun hw d hd c st st' hst => ?_, fun i => ?_, fun i => trivial, r1.trans (by simp [moveScl]), r2.trans (by simp [moveScl]), r3.trans (by simp [moveScl])⟩, hslots⟩
  · have := llSolve_relabel_sections σ (g4 hw).1 (g4 hw).2 d hd c hst
    rw [← similar_one σ d] at this
    refine ⟨this.1.mono fun R R' _ _ h => ⟨?_, h.2⟩, this.2⟩
    rw [h.1, moveLoads]
  · exact congrArg (·.clMax) ((g4 (wing_of_section i)).1 i)

end

end Verif
