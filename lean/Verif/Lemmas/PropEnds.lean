import Verif.Spec.PropEnds
import Verif.Lemmas.PropFirst

/-! # Lemmas: when a propeller analysis ends -/

namespace Verif
open V3 Act

variable {ι : Type}

/-! ### More fuel does not change the outcome of a run that has ended -/

/-- wherever `m` has ended, `m'` is the same -/
def Extends {S α : Type} (m m' : Act S α) : Prop := ∀ s, Ended (m s) → m' s = m s

namespace Extends
variable {S α β : Type}

theorem refl (m : Act S α) : Extends m m := fun _ _ => rfl

theorem bind {m m' : Act S α} {f f' : α → Act S β} (h : Extends m m') (hf : ∀ a, Extends (f a) (f' a)) :
    Extends (m >>= f) (m' >>= f') := by
  intro s hs
  rcases e : m s with ⟨er | a, s1⟩
  · rw [bind_of_error e] at hs ⊢
    have : Ended (m s) := by
      rw [e]
      intro h0
      exact hs (by simpa using h0)
    rw [bind_of_error ((h s this).trans e)]
  · rw [bind_of_ok e] at hs ⊢
    have : Ended (m s) := by rw [e]; simp [Ended]
    rw [bind_of_ok ((h s this).trans e)]
    exact hf a s1 hs

theorem ite {p : Prop} [Decidable p] {m m' n n' : Act S α} (h : Extends m m') (h' : Extends n n') :
    Extends (if p then m else n) (if p then m' else n') := by
  by_cases hp : p
  · rw [if_pos hp, if_pos hp]; exact h
  · rw [if_neg hp, if_neg hp]; exact h'

variable (M : PropM ι) (simps : List ℝ → List ℝ → ℝ)

theorem eiLoop (einf : ℕ → ℝ) {f f' : ℕ} (hf : f ≤ f') : ∀ k x0 x1 x2 y0 y1,
    Extends (eiLoop M einf f k x0 x1 x2 y0 y1) (Verif.eiLoop M einf f' k x0 x1 x2 y0 y1) := by
  induction f generalizing f' with
  | zero => intro k x0 x1 x2 y0 y1 s hs; exact absurd rfl hs
  | succ f ih =>
    intro k x0 x1 x2 y0 y1
    obtain ⟨f', rfl⟩ : ∃ g, f' = g + 1 := ⟨f' - 1, by omega⟩
    unfold Verif.eiLoop
    simp only
    exact ite (refl _) (bind (refl _) fun y => ih (by omega) _ _ _ _ _ _)

theorem findEi {f f' : ℕ} (hf : f ≤ f') (einf : ℕ → ℝ) : Extends (findEi M f einf) (Verif.findEi M f' einf) := by
  unfold Verif.findEi
  exact bind (refl _) fun st => bind (refl _) fun y0 => bind (refl _) fun y1 => eiLoop M einf hf _ _ _ _ _ _

theorem findCoefs {f f' : ℕ} (hf : f ≤ f') (J : ℝ) : Extends (findCoefs M simps f J) (Verif.findCoefs M simps f' J) := by
  unfold Verif.findCoefs
  exact bind (refl _) fun _ => bind (refl _) fun _ => bind (findEi M hf _) fun _ => refl _

theorem coefsAtRate {f f' : ℕ} (hf : f ≤ f') (V n : ℝ) :
    Extends (coefsAtRate M simps f V n) (Verif.coefsAtRate M simps f' V n) := by
  unfold Verif.coefsAtRate
  exact bind (refl _) fun _ => bind (refl _) fun _ => findCoefs M simps hf _

theorem rateLoop {g g' : ℝ → Act PropSt (ℝ × Coefs)} (hg : ∀ x, Extends (g x) (g' x)) {f f' : ℕ} (hf : f ≤ f') :
    ∀ x0 x1 y0 y1 c, Extends (rateLoop g f x0 x1 y0 y1 c) (Verif.rateLoop g' f' x0 x1 y0 y1 c) := by
  induction f generalizing f' with
  | zero => intro x0 x1 y0 y1 c s hs; exact absurd rfl hs
  | succ f ih =>
    intro x0 x1 y0 y1 c
    obtain ⟨f', rfl⟩ : ∃ g, f' = g + 1 := ⟨f' - 1, by omega⟩
    unfold Verif.rateLoop
    exact bind (refl _) fun _ => ite (refl _) (bind (hg _) fun y => ih (by omega) _ _ _ _ _)

theorem findRate {g g' : ℝ → Act PropSt (ℝ × Coefs)} (hg : ∀ x, Extends (g x) (g' x)) {f f' : ℕ} (hf : f ≤ f') :
    Extends (findRate g f) (Verif.findRate g' f') := by
  unfold Verif.findRate
  exact bind (refl _) fun _ => bind (hg _) fun _ => ite (refl _) (bind (hg _) fun _ => rateLoop hg hf _ _ _ _ _)

theorem driveCoefs {f f' : ℕ} (hf : f ≤ f') (fl : PFlow) (dr : Drive) :
    Extends (driveCoefs M simps f fl dr) (Verif.driveCoefs M simps f' fl dr) := by
  cases dr with
  | atJ J => exact findCoefs M simps hf J
  | power P =>
    unfold Verif.driveCoefs
    refine bind (findRate (fun x => ?_) hf) fun _ => refl _
    unfold powerDiff
    exact bind (coefsAtRate M simps hf _ _) fun _ => refl _
  | motor thr =>
    unfold Verif.driveCoefs
    simp only
    cases M.motor with
    | none => exact refl _
    | some m =>
      refine bind (findRate (fun x => ?_) hf) fun _ => refl _
      unfold torqueDiff
      exact bind (coefsAtRate M simps hf _ _) fun _ => refl _

theorem runProp {f f' : ℕ} (hf : f ≤ f') (aero : Option (AeroDict ι)) (s : PropDict) :
    Extends (runProp simps f M aero s) (Verif.runProp simps f' M aero s) := by
  unfold Verif.runProp
  refine bind (refl _) fun fl => bind (refl _) fun dr => ?_
  unfold calcForces
  exact bind (driveCoefs M simps hf fl dr) fun _ => refl _

theorem propsLoop {f f' : ℕ} (hf : f ≤ f') (aero : Option (AeroDict ι)) (ps : PropDict) (sls : List (PropSlot ι)) (acc : PropAcc)
    (h : Ended (propsLoop simps f aero ps sls acc)) :
    Verif.propsLoop simps f' aero ps sls acc = Verif.propsLoop simps f aero ps sls acc := by
  induction sls generalizing acc with
  | nil => rfl
  | cons sl rest ih =>
    unfold Verif.propsLoop at h ⊢
    cases hl : localPS ps sl.name with
    | error e => rfl
    | ok s =>
      simp only [hl] at h ⊢
      rcases e : Verif.runProp simps f sl.model aero s sl.st with ⟨er | o, st⟩
      · have hrun : Ended (Verif.runProp simps f sl.model aero s sl.st) := by
          rw [e]
          simp only [e] at h
          intro h0
          exact h (by simpa using h0)
        rw [runProp sl.model simps hf aero s sl.st hrun, e]
      · have hrun : Ended (Verif.runProp simps f sl.model aero s sl.st) := by rw [e]; simp [Ended]
        rw [runProp sl.model simps hf aero s sl.st hrun, e]
        simp only [e] at h ⊢
        rcases e' : Verif.propsLoop simps f aero ps rest { F := acc.F + o.F, M := acc.M + o.M, last := some (o.T, o.l) } with ⟨er | r, t⟩
        · have hrest : Ended (Verif.propsLoop simps f aero ps rest { F := acc.F + o.F, M := acc.M + o.M, last := some (o.T, o.l) }) := by
            rw [e']
            simp only [e'] at h
            intro h0
            exact h (by simpa using h0)
          rw [ih _ hrest, e']
        · rw [ih _ (by rw [e']; simp [Ended]), e']

theorem propsSolve {f f' : ℕ} (hf : f ≤ f') (pts : Option (ι → V3)) (aero : Option (AeroDict ι)) (ps : PropDict) :
    Extends (propsSolve simps f pts aero ps) (Verif.propsSolve simps f' pts aero ps) := by
  unfold Verif.propsSolve
  refine bind (fun sls h => ?_) fun _ => refl _
  unfold propsForces at h ⊢
  rw [propsLoop simps hf aero ps sls {}]
  rcases e : Verif.propsLoop simps f aero ps sls {} with ⟨er | r, t⟩
  · simp only [e] at h
    intro h0
    exact h (by simpa using h0)
  · simp [Ended]

end Extends

/-! ### What cannot be endless -/

/-- never endless -/
def NeverEndless {S α : Type} (m : Act S α) : Prop := ∀ s, Ended (m s)

namespace NeverEndless
variable {S α β : Type}

theorem bind {m : Act S α} {f : α → Act S β} (h : NeverEndless m) (hf : ∀ a, NeverEndless (f a)) : NeverEndless (m >>= f) := by
  intro s
  rcases e : m s with ⟨er | a, s1⟩
  · rw [bind_of_error e]
    have := h s
    rw [e] at this
    intro h0
    exact this (by simpa using h0)
  · rw [bind_of_ok e]
    exact hf a s1

theorem ret (a : α) : NeverEndless (Act.ret a : Act S α) := fun _ => by simp [Ended, Act.ret]
theorem pure (a : α) : NeverEndless (pure a : Act S α) := fun _ => by simp [Ended]
theorem get : NeverEndless (Act.get : Act S S) := fun _ => by simp [Ended, Act.get]
theorem change (g : S → S) : NeverEndless (Act.change g : Act S Unit) := fun _ => by simp [Ended, Act.change]
theorem raise {e : PyErr} (h : e ≠ .recursion) : NeverEndless (Act.raise e : Act S α) := fun _ => by simpa [Ended, Act.raise] using h
theorem lift {e : Except PyErr α} (h : e ≠ .error .recursion) : NeverEndless (Act.lift e : Act S α) := fun _ => h

theorem ite {p : Prop} [Decidable p] {m n : Act S α} (h : NeverEndless m) (h' : NeverEndless n) : NeverEndless (if p then m else n) := by
  by_cases hp : p
  · rw [if_pos hp]; exact h
  · rw [if_neg hp]; exact h'

theorem finite (p : Prop) : NeverEndless (Act.finite p : Act S Unit) := by
  classical
  unfold Act.finite
  exact ite (ret _) (raise (by simp))
theorem allSome (n : ℕ) (f : ℕ → Option ℝ) : NeverEndless (Act.allSome n f : Act S (ℕ → ℝ)) := by
  classical
  unfold Act.allSome
  exact ite (ret _) (raise (by simp))
theorem nextMem : NeverEndless Verif.nextMem := fun _ => by simp [Ended, Verif.nextMem]

variable (M : PropM ι) (simps : List ℝ → List ℝ → ℝ)

theorem getCL (alpha : ℕ → ℝ) : NeverEndless (getCL M alpha) := bind nextMem fun _ => allSome _ _
theorem getCD (CL alpha : ℕ → ℝ) : NeverEndless (getCD M CL alpha) := bind nextMem fun _ => allSome _ _
theorem eiFunction (einf ei : ℕ → ℝ) : NeverEndless (eiFunction M einf ei) :=
  bind (getCL M _) fun _ => bind (finite _) fun _ => pure _

theorem coefsAt (einf ei : ℕ → ℝ) : NeverEndless (coefsAt M simps einf ei) := by
  unfold Verif.coefsAt
  exact bind (getCL M _) fun _ => bind (getCD M _ _) fun _ =>
    bind (bind (getCL M _) fun _ => bind (getCL M _) fun _ => pure _) fun _ => pure _

/-- at most two nodes: the pass counter ends the search -/
theorem eiLoop (h : M.nodes ≤ 2) (einf : ℕ → ℝ) (f : ℕ) : ∀ k, 51 ≤ f + k → 0 < f → ∀ x0 x1 x2 y0 y1,
    NeverEndless (eiLoop M einf f k x0 x1 x2 y0 y1) := by
  induction f with
  | zero => intro k _ h0; omega
  | succ f ih =>
    intro k hk _ x0 x1 x2 y0 y1
    unfold Verif.eiLoop
    simp only
    by_cases hf : 0 < f
    · exact ite (pure _) (bind (eiFunction M _ _) fun y => ih _ (by omega) hf _ _ _ _ _)
    · rw [if_pos]
      · exact pure _
      · refine .inl ⟨by omega, ?_⟩
        refine lt_of_le_of_lt (List.length_filter_le _ _) ?_
        rw [List.length_range]
        omega

theorem findCoefs (h : M.nodes ≤ 2) {f : ℕ} (hf : 51 ≤ f) (J : ℝ) : NeverEndless (findCoefs M simps f J) := by
  unfold Verif.findCoefs
  refine bind (change _) fun _ => bind (finite _) fun _ => bind ?_ fun _ => bind (change _) fun _ => coefsAt M simps _ _
  unfold findEi
  exact bind get fun _ => bind (eiFunction M _ _) fun _ => bind (eiFunction M _ _) fun _ =>
    eiLoop M h _ f 0 (by omega) (by omega) _ _ _ _ _

end NeverEndless

/-! ### A search that never ends -/

open Classical in
/-- a pass of the search that comes back to the angles `x` at which no section has an angle of attack -/
theorem eiLoop_back {M : PropM ι} {einf x p0 p1 p2 y0 y1 : ℕ → ℝ} {v : ℕ → ℝ} {st : PropSt} {fuel k : ℕ}
    (hx : ∀ i, i < M.nodes → x i = (M.stn i).beta - einf i ∧ |x i| < 1)
    (hv : ∀ i, i < M.nodes → ∃ c, st.mem st.tick i = some c ∧
      (M.stn i).chatb / (8 * (M.stn i).zeta) * c - Real.arccos (goldstein M i) * Real.tan (x i) * Real.sin (einf i + x i) = v st.tick)
    (h2 : ∀ i, i < M.nodes → p2 i = x i)
    (h : ∀ i, i < M.nodes → (p0 i = x i ∧ y0 i = 0) ∨ (p1 i = x i ∧ y1 i = 0) ∨ (p0 i = x i ∧ p1 i = x i))
    (hend : ¬ ((k + 1 > 50 ∧ ((List.range M.nodes).filter fun i => |y1 i - y0 i| > 1e-11).length < 3) ∨
      ((List.range M.nodes).filter fun i => |y1 i - y0 i| > 1e-11).length = 0)) :
    ∃ q y : ℕ → ℝ, (∀ i, i < M.nodes → q i = x i ∧ y i = v st.tick) ∧
      eiLoop M einf (fuel + 1) k p0 p1 p2 y0 y1 st = eiLoop M einf fuel (k + 1) p1 q q y1 y { st with tick := st.tick + 1 } := by
  set q : ℕ → ℝ := fun i => correctEi (M.stn i).beta (einf i)
      (if |y1 i - y0 i| > 1e-11 then p1 i - y1 i * (p1 i - p0 i) / (y1 i - y0 i) else p2 i) with hq
  have hqx : ∀ i, i < M.nodes → q i = x i := by
    intro i hi
    have e : (if |y1 i - y0 i| > 1e-11 then p1 i - y1 i * (p1 i - p0 i) / (y1 i - y0 i) else p2 i) = x i := by
      by_cases hl : |y1 i - y0 i| > 1e-11
      · rw [if_pos hl]
        have hne : y1 i - y0 i ≠ 0 := by
          intro h0; rw [h0] at hl; norm_num at hl
        rcases h i hi with ⟨a, b⟩ | ⟨a, b⟩ | ⟨a, b⟩
        · rw [b, sub_zero] at hne ⊢
          rw [a]; field_simp; ring
        · rw [a, b]; simp
        · rw [a, b]; simp
      · rw [if_neg hl]; exact h2 i hi
    simp only [hq]
    rw [e]
    obtain ⟨a, b⟩ := hx i hi
    rw [a] at b ⊢
    exact correctEi_fix b
  choose! c hc using hv
  have hcos : ∀ i, i < M.nodes → Real.cos (q i) ≠ 0 := by
    intro i hi
    rw [hqx i hi]
    have := (hx i hi).2
    rw [abs_lt] at this
    have hpi := Real.pi_gt_d2
    refine (Real.cos_pos_of_mem_Ioo ⟨?_, ?_⟩).ne' <;> norm_num at this hpi ⊢ <;> linarith
  obtain ⟨y, hy, hyi⟩ := eiFunction_ok (M := M) (einf := einf) (ei := q) (CL := c) (st := st)
    (fun i hi => by
      rw [hqx i hi, (hx i hi).1, show (M.stn i).beta - einf i - ((M.stn i).beta - einf i) = 0 by ring, sectionCL_zero]
      exact (hc i hi).1) hcos
  refine ⟨q, y, fun i hi => ⟨hqx i hi, ?_⟩, ?_⟩
  · rw [hyi i hi, hqx i hi]
    exact (hc i hi).2
  · rw [eiLoop]
    simp only
    rw [if_neg hend, bind_of_ok hy]

open Classical in
/-- once back, the search stays there as long as the memory contents keep changing -/
theorem eiLoop_stuck {M : PropM ι} (hn : 3 ≤ M.nodes) {einf x : ℕ → ℝ} {v : ℕ → ℝ} {mem : ℕ → ℕ → Option ℝ}
    (hx : ∀ i, i < M.nodes → x i = (M.stn i).beta - einf i ∧ |x i| < 1) {t : ℕ}
    (hv : ∀ k, t ≤ k → ∀ i, i < M.nodes → ∃ c, mem k i = some c ∧
      (M.stn i).chatb / (8 * (M.stn i).zeta) * c - Real.arccos (goldstein M i) * Real.tan (x i) * Real.sin (einf i + x i) = v k)
    (halt : ∀ k, t ≤ k → |v (k + 1) - v k| > 1e-11) (fuel : ℕ) : ∀ (k tick : ℕ) (ei : ℕ → ℝ) (rps : ℝ) (p0 p1 y0 y1 : ℕ → ℝ), t ≤ tick →
    (∀ i, i < M.nodes → p0 i = x i ∧ p1 i = x i ∧ y0 i = v tick ∧ y1 i = v (tick + 1)) →
    (eiLoop M einf fuel k p0 p1 p1 y0 y1 { ei, rps, mem, tick := tick + 2 }).1 = .error .recursion := by
  induction fuel with
  | zero => intro k tick ei rps p0 p1 y0 y1 _ _; rfl
  | succ fuel ih =>
    intro k tick ei rps p0 p1 y0 y1 ht h
    have hlen : ((List.range M.nodes).filter fun i => |y1 i - y0 i| > 1e-11) = List.range M.nodes := by
      rw [List.filter_eq_self]
      intro i hi
      obtain ⟨-, -, a, b⟩ := h i (List.mem_range.1 hi)
      rw [a, b]
      simpa using halt tick ht
    obtain ⟨q, y, hq, e⟩ := eiLoop_back (fuel := fuel) (k := k) (p0 := p0) (p1 := p1) (p2 := p1) (y0 := y0) (y1 := y1) (v := v)
      (st := { ei, rps, mem, tick := tick + 2 }) hx (hv _ (by simp only; omega)) (fun i hi => (h i hi).2.1)
      (fun i hi => .inr (.inr ⟨(h i hi).1, (h i hi).2.1⟩)) (by rw [hlen, List.length_range]; omega)
    rw [e]
    exact ih (k + 1) (tick + 1) ei rps p1 q y1 y (by omega) fun i hi => ⟨(h i hi).2.1, (hq i hi).1, (h i hi).2.2.2, (hq i hi).2⟩

open Classical in
/-- **A search that never ends.** At least three nodes, none extreme; at one of them the residual at the second guess is not
tiny.  Then there are memory contents with which the search for the induced angles of a first analysis never ends. -/
theorem endless {M : PropM ι} {J : ℝ} (hm : Mild M J) (hn : 3 ≤ M.nodes) {einf x : ℕ → ℝ}
    (he : einf = fun i => einfAt J (M.stn i).zeta) (hx : x = fun i => (M.stn i).beta - einf i)
    {j : ℕ} (hj : j < M.nodes)
    (hY : 1e-11 < (M.stn j).chatb / (8 * (M.stn j).zeta) * ((M.stn j).af.CLa * (1e-4 * (1 - x j))) -
      Real.arccos (goldstein M j) * Real.tan (x j * (1 + 1e-4) - 1e-4) * Real.sin (einf j + (x j * (1 + 1e-4) - 1e-4)))
    (rps : ℝ) (tick : ℕ) :
    ∃ mem, ∀ (simps : List ℝ → List ℝ → ℝ) (fuel : ℕ), (findCoefs M simps fuel J { rps, mem, tick }).1 = .error .recursion := by
  set res : ℕ → ℝ := fun i => Real.arccos (goldstein M i) * Real.tan (x i) * Real.sin (einf i + x i) with hres
  set v : ℕ → ℝ := fun k => if (k - tick) % 2 = 1 then 1 else 0 with hv
  set mem : ℕ → ℕ → Option ℝ := fun k i => some ((v k + res i) / ((M.stn i).chatb / (8 * (M.stn i).zeta))) with hmem
  have hc : ∀ i, i < M.nodes → (M.stn i).chatb / (8 * (M.stn i).zeta) ≠ 0 := fun i hi =>
    div_ne_zero (hm.node i hi).2.2.2.2.2.2.1 (mul_ne_zero (by norm_num) (hm.node i hi).2.2.2.2.2.2.2)
  have hvm : ∀ k, ∀ i, i < M.nodes → ∃ c, mem k i = some c ∧
      (M.stn i).chatb / (8 * (M.stn i).zeta) * c - Real.arccos (goldstein M i) * Real.tan (x i) * Real.sin (einf i + x i) = v k := by
    intro k i hi
    refine ⟨_, rfl, ?_⟩
    rw [mul_div_cancel₀ _ (hc i hi)]
    simp only [hres]
    ring
  have hab : ∀ i, i < M.nodes → x i = (M.stn i).beta - einf i ∧ |x i| < 1 := by
    intro i hi
    have := (hm.node i hi).2.2.1
    rw [hx, he]
    exact ⟨rfl, this⟩
  have hcos : ∀ x : ℝ, |x| < 1.5 → Real.cos x ≠ 0 := by
    intro x hx
    rw [abs_lt] at hx
    have := Real.pi_gt_d2
    refine (Real.cos_pos_of_mem_Ioo ⟨?_, ?_⟩).ne' <;> norm_num at hx this ⊢ <;> linarith
  set x1 : ℕ → ℝ := fun i => x i * (1 + 1e-4) - 1e-4 with hx1
  have hr2 := rad_two_gt
  refine ⟨mem, fun simps fuel => ?_⟩
  unfold findCoefs
  simp only [change_bind]
  rw [if_neg (by push Not; exact fun _ _ => rfl),
    bind_of_ok (finite_of ⟨hm.tip, fun i hi => ⟨(hm.node i hi).1, (hm.node i hi).2.1⟩⟩ _)]
  -- the first residual
  obtain ⟨a0, r0, v0⟩ := eiFunction_ok (M := M) (einf := einf) (ei := x)
    (CL := fun i => (v tick + res i) / ((M.stn i).chatb / (8 * (M.stn i).zeta)))
    (st := { ei := x, rps, mem, tick })
    (fun i hi => by
      have : (M.stn i).beta - einf i - x i = 0 := by rw [(hab i hi).1]; ring
      rw [this, sectionCL_zero])
    (fun i hi => hcos _ (lt_trans (hab i hi).2 (by norm_num)))
  have z0 : ∀ i, i < M.nodes → a0 i = 0 := by
    intro i hi
    rw [v0 i hi, mul_div_cancel₀ _ (hc i hi)]
    simp only [hres, hv]
    simp
  -- the second
  obtain ⟨a1, r1, v1⟩ := eiFunction_ok (M := M) (einf := einf) (ei := x1)
    (CL := fun i => (M.stn i).af.CLa * (1e-4 * (1 - x i)))
    (st := { ei := x, rps, mem, tick := tick + 1 })
    (fun i hi => by
      have hlt := abs_lt.1 (hab i hi).2
      have e : (M.stn i).beta - einf i - x1 i = 1e-4 * (1 - x i) := by
        simp only [hx1]; rw [show (M.stn i).beta = x i + einf i by rw [(hab i hi).1]; ring]; ring
      rw [e]
      have hd := (hm.node i hi).2.2.2.1
      refine sectionCL_linear _ _ (mul_ne_zero (by norm_num) (by linarith)) ?_ ?_ <;> norm_num at hd hr2 hlt ⊢ <;> linarith)
    (fun i hi => hcos _ (by
      have hlt := abs_lt.1 (hab i hi).2
      simp only [hx1]
      rw [abs_lt]
      constructor <;> norm_num <;> linarith))
  have hY1 : 1e-11 < a1 j := by rw [v1 j hj]; exact hY
  suffices hs : (findEi M fuel einf { ei := x, rps, mem, tick }).1 = .error .recursion by
    have hx' : (fun i => (M.stn i).beta - einfAt J (M.stn i).zeta) = x := by rw [hx, he]
    rw [hx', ← he]
    rcases e : findEi M fuel einf { ei := x, rps, mem, tick } with ⟨er | a, s1⟩
    · rw [e] at hs
      rw [bind_of_error e]
      simpa using hs
    · rw [e] at hs
      cases hs
  unfold findEi
  rw [get_bind]
  simp only
  rw [bind_of_ok r0, bind_of_ok r1]
  -- the first two passes
  have live : ∀ {y : ℕ → ℝ}, (∀ i, i < M.nodes → y i = 0) →
      ((List.range M.nodes).filter fun i => |a1 i - y i| > 1e-11).length ≠ 0 ∧
      ((List.range M.nodes).filter fun i => |y i - a1 i| > 1e-11).length ≠ 0 := by
    intro y hy
    have h1 : |a1 j - y j| > 1e-11 := by
      rw [hy j hj, sub_zero]; exact lt_of_lt_of_le hY1 (le_abs_self _)
    constructor <;> rw [Ne, List.length_eq_zero_iff] <;> intro h0
    · have : j ∈ ((List.range M.nodes).filter fun i => |a1 i - y i| > 1e-11) :=
        List.mem_filter.2 ⟨List.mem_range.2 hj, by simpa using h1⟩
      rw [h0] at this; simp at this
    · have : j ∈ ((List.range M.nodes).filter fun i => |y i - a1 i| > 1e-11) :=
        List.mem_filter.2 ⟨List.mem_range.2 hj, by rw [abs_sub_comm] at h1; simpa using h1⟩
      rw [h0] at this; simp at this
  cases fuel with
  | zero => rfl
  | succ fuel =>
    obtain ⟨q, y, hq, e⟩ := eiLoop_back (fuel := fuel) (k := 0) (p0 := x) (p1 := x1) (p2 := x) (y0 := a0) (y1 := a1) (v := v)
      (st := { ei := x, rps, mem, tick := tick + 1 + 1 }) hab (hvm _) (fun _ _ => rfl) (fun i hi => .inl ⟨rfl, z0 i hi⟩)
      (by have := (live z0).1; omega)
    rw [e]
    have hy0 : ∀ i, i < M.nodes → y i = 0 := by
      intro i hi
      rw [(hq i hi).2]
      simp only [hv]
      rw [if_neg (by omega)]
    cases fuel with
    | zero => rfl
    | succ fuel =>
      obtain ⟨q', y', hq', e⟩ := eiLoop_back (fuel := fuel) (k := 1) (p0 := x1) (p1 := q) (p2 := q) (y0 := a1) (y1 := y) (v := v)
        (st := { ei := x, rps, mem, tick := tick + 1 + 1 + 1 }) hab (hvm _) (fun i hi => (hq i hi).1)
        (fun i hi => .inr (.inl ⟨(hq i hi).1, hy0 i hi⟩)) (by have := (live hy0).2; omega)
      rw [e]
      refine eiLoop_stuck hn hab (t := tick + 2) (fun k _ => hvm k) (fun k hk => ?_) fuel 2 (tick + 2) x rps q q' y y' le_rfl
        fun i hi => ⟨(hq i hi).1, (hq' i hi).1, (hq i hi).2, (hq' i hi).2⟩
      simp only [hv]
      rcases Nat.mod_two_eq_zero_or_one (k - tick) with h0 | h0
      · rw [if_pos (by omega), if_neg (by omega)]; norm_num
      · rw [if_neg (by omega), if_pos h0]; norm_num

end Verif
