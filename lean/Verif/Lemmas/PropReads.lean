import Verif.Lemmas.Prop

/-! # Which memory contents an analysis of a propeller reads -/

namespace Verif
open V3 Act

variable {ι α β : Type}

/-- With memory `m'` in place of a memory whose numbers `m'` agrees with, a successful run of `f` has the same result. -/
def MemReads (m' : ℕ → ℕ → Option ℝ) (f : Act PropSt α) : Prop :=
  ∀ st a s1, (∀ k i x, st.mem k i = some x → m' k i = some x) → f st = (.ok a, s1) →
    f { st with mem := m' } = (.ok a, { s1 with mem := m' }) ∧ s1.mem = st.mem

variable {m' : ℕ → ℕ → Option ℝ}

theorem MemReads.ret (a : α) : MemReads m' (pure a : Act PropSt α) := by
  intro st b s1 _ h
  rw [pure_run] at h
  cases h
  exact ⟨rfl, rfl⟩

theorem MemReads.raise (e : PyErr) : MemReads m' (Act.raise e : Act PropSt α) := by
  intro st b s1 _ h
  cases h

theorem MemReads.lift (e : Except PyErr α) : MemReads m' (Act.lift e : Act PropSt α) := by
  intro st b s1 _ h
  obtain ⟨h1, h2⟩ := lift_eq_ok.1 h
  subst h2
  exact ⟨lift_eq_ok.2 ⟨h1, rfl⟩, rfl⟩

theorem MemReads.bind {f : Act PropSt α} {g : α → Act PropSt β} (hf : MemReads m' f) (hg : ∀ a, MemReads m' (g a)) : MemReads m' (f >>= g) := by
  intro st b s2 hm h
  obtain ⟨a, s1, h1, h2⟩ := bind_ok.1 h
  obtain ⟨e1, k1⟩ := hf st a s1 hm h1
  obtain ⟨e2, k2⟩ := hg a s1 b s2 (by rw [k1]; exact hm) h2
  exact ⟨by rw [bind_of_ok e1, e2], k2.trans k1⟩

theorem MemReads.ite {p : Prop} [Decidable p] {f g : Act PropSt α} (hf : MemReads m' f) (hg : MemReads m' g) : MemReads m' (if p then f else g) := by
  split_ifs
  · exact hf
  · exact hg

theorem MemReads.finite (p : Prop) : MemReads m' (Act.finite p : Act PropSt Unit) := by
  classical
  unfold Act.finite
  exact MemReads.ite (MemReads.ret ()) (MemReads.raise _)

/-- assignments to the other attributes -/
theorem MemReads.change {f : PropSt → PropSt} (h : ∀ st m, f { st with mem := m } = { f st with mem := m }) :
    MemReads m' (Act.change f) := by
  intro st b s1 _ e
  have e' : ((Except.ok () : Except PyErr Unit), f st) = (Except.ok b, s1) := e
  cases e'
  refine ⟨?_, ?_⟩
  · show ((Except.ok () : Except PyErr Unit), f { st with mem := m' }) = _
    rw [h]
  · have := congrArg PropSt.mem (h st st.mem)
    exact this

/-- reading the other attributes -/
theorem MemReads.getBind {g : PropSt → Act PropSt β} (h : ∀ st m, g { st with mem := m } = g st) (hg : ∀ st, MemReads m' (g st)) :
    MemReads m' (Act.get >>= g) := by
  intro st b s1 hm e
  rw [get_bind] at e ⊢
  rw [h]
  exact hg st st b s1 hm e

/-- a result in which the uninitialised entries that are not overwritten must be numbers -/
theorem MemReads.fresh {n : ℕ} {f : (ℕ → Option ℝ) → ℕ → Option ℝ}
    (h : ∀ (a b : ℕ → Option ℝ) i x, (∀ y, a i = some y → b i = some y) → f a i = some x → f b i = some x) :
    MemReads m' (nextMem >>= fun mem => Act.allSome n (f mem)) := by
  intro st g s1 hm e
  have e' : (Act.allSome n (f (st.mem st.tick)) : Act PropSt _) { st with tick := st.tick + 1 } = (.ok g, s1) := e
  show (Act.allSome n (f (m' st.tick)) : Act PropSt _) { st with mem := m', tick := st.tick + 1 } = _ ∧ _
  unfold Act.allSome at e' ⊢
  split_ifs at e' with h1
  · have h2 : ∀ i, i < n → f (m' st.tick) i = f (st.mem st.tick) i := by
      intro i hi
      obtain ⟨x, hx⟩ := Option.isSome_iff_exists.1 (h1 i hi)
      rw [hx]
      exact h _ _ i x (fun y hy => hm _ _ _ hy) hx
    cases e'
    refine ⟨?_, rfl⟩
    rw [if_pos (fun i hi => by rw [h2 i hi]; exact h1 i hi)]
    refine Prod.ext ?_ rfl
    simp only [ret_run, Except.ok.injEq]
    funext i
    split_ifs with hi
    · rw [h2 i hi]
    · rfl
  · cases e'

section
variable (M : PropM ι) (simps : List ℝ → List ℝ → ℝ) (fuel : ℕ)

theorem memReads_getCL (alpha : ℕ → ℝ) : MemReads m' (getCL M alpha) := by
  refine MemReads.fresh (f := fun mem i => sectionCL (M.stn i) (mem i) (alpha i)) fun a b i x h e => ?_
  unfold sectionCL at e ⊢
  split_ifs at e ⊢
  · exact e
  · exact e
  · exact h x e

theorem memReads_getCD (CL alpha : ℕ → ℝ) : MemReads m' (getCD M CL alpha) := by
  refine MemReads.fresh (f := fun mem i => sectionCD (M.stn i) (mem i) (CL i) (alpha i)) fun a b i x h e => ?_
  unfold sectionCD at e ⊢
  split_ifs at e ⊢
  · exact e
  · exact e
  · exact e
  · exact h x e

theorem memReads_getCLa (alpha : ℕ → ℝ) : MemReads m' (getCLa M alpha) :=
  (memReads_getCL M _).bind fun _ => (memReads_getCL M _).bind fun _ => MemReads.ret _

theorem memReads_eiFunction (einf ei : ℕ → ℝ) : MemReads m' (eiFunction M einf ei) :=
  (memReads_getCL M _).bind fun _ => (MemReads.finite _).bind fun _ => MemReads.ret _

theorem memReads_eiLoop (einf : ℕ → ℝ) (f : ℕ) : ∀ k x0 x1 x2 y0 y1, MemReads m' (eiLoop M einf f k x0 x1 x2 y0 y1) := by
  classical
  induction f with
  | zero => intros; exact MemReads.raise _
  | succ f ih =>
    intro k x0 x1 x2 y0 y1
    unfold eiLoop
    exact MemReads.ite (MemReads.ret _) ((memReads_eiFunction M _ _).bind fun _ => ih _ _ _ _ _ _)

theorem memReads_findEi (einf : ℕ → ℝ) : MemReads m' (findEi M fuel einf) :=
  MemReads.getBind (fun _ _ => rfl) fun _ => (memReads_eiFunction M _ _).bind fun _ => (memReads_eiFunction M _ _).bind fun _ =>
    memReads_eiLoop M _ _ _ _ _ _ _ _

theorem memReads_coefsAt (einf ei : ℕ → ℝ) : MemReads m' (coefsAt M simps einf ei) :=
  (memReads_getCL M _).bind fun _ => (memReads_getCD M _ _).bind fun _ => (memReads_getCLa M _).bind fun _ => MemReads.ret _

theorem memReads_findCoefs (J : ℝ) : MemReads m' (findCoefs M simps fuel J) := by
  unfold findCoefs
  refine (MemReads.change fun st m => ?_).bind fun _ => (MemReads.finite _).bind fun _ => (memReads_findEi M fuel _).bind fun _ =>
    (MemReads.change fun _ _ => rfl).bind fun _ => memReads_coefsAt M simps _ _
  simp only
  split_ifs <;> rfl

theorem memReads_coefsAtRate (V n : ℝ) : MemReads m' (coefsAtRate M simps fuel V n) :=
  (MemReads.change fun _ _ => rfl).bind fun _ => (MemReads.finite _).bind fun _ => memReads_findCoefs M simps fuel _

theorem memReads_powerDiff (fl : PFlow) (P n : ℝ) : MemReads m' (powerDiff M simps fuel fl P n) :=
  (memReads_coefsAtRate M simps fuel _ _).bind fun _ => MemReads.ret _

theorem memReads_torqueDiff (fl : PFlow) (m : Motor) (thr n : ℝ) : MemReads m' (torqueDiff M simps fuel fl m thr n) :=
  (memReads_coefsAtRate M simps fuel _ _).bind fun _ => (MemReads.lift _).bind fun _ => MemReads.ret _

theorem memReads_rateLoop {f : ℝ → Act PropSt (ℝ × Coefs)} (hf : ∀ x, MemReads m' (f x)) (k : ℕ) :
    ∀ x0 x1 y0 y1 c, MemReads m' (rateLoop f k x0 x1 y0 y1 c) := by
  classical
  induction k with
  | zero => intros; exact MemReads.raise _
  | succ k ih =>
    intro x0 x1 y0 y1 c
    unfold rateLoop
    exact (MemReads.finite _).bind fun _ => MemReads.ite (MemReads.ret _) ((hf _).bind fun _ => ih _ _ _ _ _)

theorem memReads_findRate {f : ℝ → Act PropSt (ℝ × Coefs)} (hf : ∀ x, MemReads m' (f x)) : MemReads m' (findRate f fuel) := by
  classical
  unfold findRate
  exact MemReads.getBind (fun _ _ => rfl) fun _ => (hf _).bind fun _ => MemReads.ite (MemReads.ret _)
    ((hf _).bind fun _ => memReads_rateLoop hf _ _ _ _ _ _)

theorem memReads_driveCoefs (fl : PFlow) (dr : Drive) : MemReads m' (driveCoefs M simps fuel fl dr) := by
  cases dr with
  | atJ J => exact memReads_findCoefs M simps fuel J
  | power P =>
    exact (memReads_findRate fuel fun x => memReads_powerDiff M simps fuel fl P x).bind fun _ => (MemReads.change fun _ _ => rfl).bind fun _ =>
      (MemReads.finite _).bind fun _ => MemReads.ret _
  | motor thr =>
    unfold driveCoefs
    cases M.motor with
    | none => exact MemReads.raise _
    | some m =>
      exact (memReads_findRate fuel fun x => memReads_torqueDiff M simps fuel fl m thr x).bind fun _ =>
        (MemReads.change fun _ _ => rfl).bind fun _ => (MemReads.finite _).bind fun _ => MemReads.ret _

theorem memReads_setPropDict (V : ℝ) (s : PropDict) : MemReads m' (setPropDict M V s) := by
  classical
  have ch : ∀ x : ℝ, MemReads m' (Act.change fun st : PropSt => { st with rps := x }) := fun x => MemReads.change fun _ _ => rfl
  unfold setPropDict
  refine MemReads.ite ((ch _).bind fun _ => MemReads.ret _) (MemReads.ite ((MemReads.lift _).bind fun J => MemReads.ite (MemReads.ite
    ((MemReads.lift _).bind fun _ => (ch _).bind fun _ => MemReads.ret _) (MemReads.raise _)) ((ch _).bind fun _ => MemReads.ret _))
    (MemReads.ite ((MemReads.lift _).bind fun _ => (ch _).bind fun _ => MemReads.ite (MemReads.raise _) (MemReads.ret _))
    (MemReads.ite ((MemReads.lift _).bind fun _ => MemReads.ret _) (MemReads.ite ((MemReads.lift _).bind fun _ => MemReads.ret _) (MemReads.raise _)))))

theorem memReads_runProp (aero : Option (AeroDict ι)) (s : PropDict) : MemReads m' (runProp simps fuel M aero s) :=
  (MemReads.lift _).bind fun _ => (memReads_setPropDict M _ _).bind fun _ => (memReads_driveCoefs M simps fuel _ _).bind fun _ =>
    MemReads.ite (MemReads.raise _) (MemReads.getBind (fun _ _ => rfl) fun _ => MemReads.lift _)

end

end Verif
