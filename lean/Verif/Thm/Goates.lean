import Verif.Model.Goates
import Verif.Lemmas.Jet
import Verif.Examples.Prop
import Verif.Thm.SlipVelocity

/-! # C125, C126: the viscous slipstream -/

namespace Verif
open V3 Goates

/-- What a root finder returns is a root. -/
structure SoundRoots (E : Ext) : Prop where
  two : ∀ f g x, E.root2 f g = some x → f x = (0, 0)
  three : ∀ f g x, E.root3 f g = some x → f x = (0, 0, 0)

/-- the trapezoidal rule with 200 points between zero and `c` -/
noncomputable def sum200 (c : ℝ) (f : ℝ → ℝ) : ℝ :=
  ∑ i ∈ Finset.range 199, c / 199 * (f (c * (i / 199)) + f (c * ((i + 1) / 199))) / 2

theorem found_ok {α : Type} {o : Option α} {x : α} (h : found o = .ok x) : o = some x := by
  cases o with
  | none => simp [found] at h
  | some y => simp only [found, Except.ok.injEq] at h; rw [h]

theorem trapz_sum200 (c : ℝ) (f : ℝ → ℝ) : trapz 200 (fun i => f (c * unity i)) (fun i => c * unity i) = sum200 c f := by
  unfold trapz sum200 unity
  refine Finset.sum_congr rfl fun i _ => ?_
  push_cast
  ring

theorem sum200_congr {c : ℝ} (hc : 0 ≤ c) {f g : ℝ → ℝ} (h : ∀ r, 0 ≤ r → r ≤ c → f r = g r) : sum200 c f = sum200 c g := by
  unfold sum200
  refine Finset.sum_congr rfl fun i hi => ?_
  rw [Finset.mem_range] at hi
  have h1 : ((i : ℕ) : ℝ) + 1 ≤ 199 := by exact_mod_cast hi
  have h0 : (0 : ℝ) ≤ i := Nat.cast_nonneg i
  rw [h (c * (i / 199)) (by positivity) (by
      refine mul_le_of_le_one_right hc ?_
      rw [div_le_one (by norm_num)]; linarith),
    h (c * ((i + 1) / 199)) (by positivity) (by
      refine mul_le_of_le_one_right hc ?_
      rw [div_le_one (by norm_num)]; linarith)]

theorem axialMom_eq {bg : ℝ} (hb : 0 < bg) (Vs um wm : ℝ) :
    axialMom Vs bg um wm = Jet.thrust Vs (Jet.bell bg um) (Jet.tent (0.15 * bg) (1.5 * bg) wm) := by
  rw [Jet.thrust_bell_tent hb (by positivity) (by linarith)]
  unfold axialMom widthRatio maxRatio
  simp only
  rw [show (0.1 : ℝ) * (bg * 1.5) = 0.15 * bg by ring, show bg * (1.5 : ℝ) = 1.5 * bg by ring]

theorem angularMom_eq {bg : ℝ} (hb : 0 < bg) (Vs um wm : ℝ) :
    angularMom Vs bg um wm = sum200 (1.5 * bg) fun r => (Jet.bell bg um r + Vs) * Jet.tent (0.15 * bg) (1.5 * bg) wm r * r ^ 2 := by
  unfold angularMom widthRatio maxRatio
  simp only
  rw [show (0.1 : ℝ) * (bg * 1.5) = 0.15 * bg by ring, show bg * (1.5 : ℝ) = 1.5 * bg by ring,
    trapz_sum200 (1.5 * bg) fun r => (um * Real.exp (-(r / bg) ^ 2) + Vs) * swirlL (1.5 * bg) (0.15 * bg) wm r * r * r]
  refine sum200_congr (by positivity) fun r h0 h1 => ?_
  have e : swirlL (1.5 * bg) (0.15 * bg) wm r = Jet.tent (0.15 * bg) (1.5 * bg) wm r := by
    unfold swirlL Jet.tent
    have hne : (0.15 : ℝ) * bg ≠ 0 := by positivity
    by_cases h : r < 0.15 * bg
    · rw [if_pos h, if_pos h.le, mul_div_assoc]
    · rw [if_neg h, if_pos h1]
      by_cases h' : r ≤ 0.15 * bg
      · rw [if_pos h']
        have : r = 0.15 * bg := le_antisymm h' (not_lt.1 h)
        subst this
        rw [mul_div_assoc, div_self hne, mul_one, div_mul_cancel₀]
        intro h0
        linarith
      · rw [if_neg h', ← neg_sub (1.5 * bg) (0.15 * bg), ← neg_sub (1.5 * bg) r, div_neg]
        ring
  rw [e]
  unfold Jet.bell
  ring

/-- **C125, zone of established flow.** With a root finder whose answers are roots, at every station the jet is written down twice, and both
descriptions carry what the disc put in: a jet with constant velocities `U`, `W` up to the radius `B` has thrust `M` and torque `L`; the
self-similar jet of width `bg` has the same volume flow, the same thrust, and the same torque as far as the trapezoidal rule can tell. -/
theorem C125_stations {E : Ext} (hE : SoundRoots E) {Vs : ℝ} {fuel : ℕ} {bg M L um wm xe bt maxX : ℝ} {l : List Station}
    (h : integrateZEF E Vs fuel bg M L um wm xe bt maxX = .ok l) (t : Station) (ht : t ∈ l) :
    (0 ≤ t.B → Jet.thrust Vs (Jet.hat t.B t.U) (Jet.hat t.B t.W) = M ∧ Jet.torque Vs (Jet.hat t.B t.U) (Jet.hat t.B t.W) = L) ∧
    (0 ≤ t.B → 0 < t.bg → Jet.flow (Jet.bell t.bg t.um) = Jet.flow (Jet.hat t.B t.U)) ∧
    (0 < t.bg → Jet.thrust Vs (Jet.bell t.bg t.um) (Jet.tent (0.15 * t.bg) (1.5 * t.bg) t.wm) = M ∧
      sum200 (1.5 * t.bg) (fun r => (Jet.bell t.bg t.um r + Vs) * Jet.tent (0.15 * t.bg) (1.5 * t.bg) t.wm r * r ^ 2) = L) := by
  have key : ∀ (xs : List (ℝ × ℝ)) (g : ℝ × ℝ) (g' : ℝ × ℝ × ℝ) (l : List Station), stations E Vs M L xs g g' = .ok l → ∀ t ∈ l,
      tophat Vs t.B M L (t.U, t.W) = (0, 0) ∧ selfSimilar Vs t.B M L t.U (t.bg, t.um, t.wm) = (0, 0, 0) := by
    intro xs
    induction xs with
    | nil =>
      intro g g' l h t ht
      simp only [stations, Except.ok.injEq] at h
      subst h
      simp at ht
    | cons p xs ih =>
      intro g g' l h t ht
      obtain ⟨x, B⟩ := p
      simp only [stations, bind, Except.bind] at h
      cases h1 : found (E.root2 (tophat Vs B M L) g) with
      | error e => rw [h1] at h; simp at h
      | ok u =>
        rw [h1] at h
        simp only at h
        cases h2 : found (E.root3 (selfSimilar Vs B M L u.1) g') with
        | error e => rw [h2] at h; simp at h
        | ok s =>
          rw [h2] at h
          simp only at h
          cases h3 : stations E Vs M L xs u s with
          | error e => rw [h3] at h; simp at h
          | ok l' =>
            rw [h3] at h
            simp only [pure, Except.pure, Except.ok.injEq] at h
            subst h
            rcases List.mem_cons.1 ht with rfl | ht
            · exact ⟨hE.two _ _ _ (found_ok h1), hE.three _ _ _ (found_ok h2)⟩
            · exact ih _ _ _ h3 t ht
  have hst : tophat Vs t.B M L (t.U, t.W) = (0, 0) ∧ selfSimilar Vs t.B M L t.U (t.bg, t.um, t.wm) = (0, 0, 0) := by
    simp only [integrateZEF, bind, Except.bind] at h
    cases h1 : found (E.root3 (tophatAtXe Vs bg um M L) (bg, um / 2, wm / 2)) with
    | error e => rw [h1] at h; simp at h
    | ok s =>
      rw [h1] at h
      simp only at h
      cases h2 : (march E Vs M L bt (xe / 50) maxX fuel true xe s.1 (s.2.1, s.2.2)).1 with
      | error e => rw [h2] at h; simp at h
      | ok l' =>
        rw [h2] at h
        exact key _ _ _ _ h t ht
  obtain ⟨a, b⟩ := hst
  simp only [tophat, selfSimilar, Prod.mk.injEq] at a b
  refine ⟨fun hB => ⟨?_, ?_⟩, fun hB hb => ?_, fun hb => ⟨?_, ?_⟩⟩
  · rw [Jet.thrust_hat hB]; linarith [a.1]
  · rw [Jet.torque_hat hB]; linarith [a.2]
  · rw [Jet.flow_bell hb, Jet.flow_hat hB]; linarith [b.1]
  · rw [← axialMom_eq hb]; linarith [b.2.1]
  · rw [← angularMom_eq hb]; linarith [b.2.2]

/-- **C125, near the disc.** At every distance for which the equivalent jet was found, a jet with constant velocities has the thrust and the
torque of the slipstream of the disc there. -/
theorem C125_equivalent {E : Ext} (hE : SoundRoots E) {ι : Type} (P : PropM ι) (hd : 0 ≤ P.d) (Vs n : ℝ) (c : Coefs) {kds : List ℝ} {g : ℝ × ℝ} {l : List (ℝ × ℝ × ℝ)}
    (h : equivJets P Vs n c E kds g = .ok l) : l.map Prod.fst = kds ∧ ∀ e ∈ l,
      Jet.thrust Vs (Jet.hat (rsG P Vs n c e.1) e.2.1) (Jet.hat (rsG P Vs n c e.1) e.2.2) = msG P Vs n c e.1 ∧
      Jet.torque Vs (Jet.hat (rsG P Vs n c e.1) e.2.1) (Jet.hat (rsG P Vs n c e.1) e.2.2) = lsG P Vs n c e.1 := by
  induction kds generalizing g l with
  | nil =>
    simp only [equivJets, Except.ok.injEq] at h
    subst h
    simp
  | cons kd t ih =>
    simp only [equivJets, bind, Except.bind] at h
    cases h1 : found (E.root2 (equivalent Vs (msG P Vs n c kd) (lsG P Vs n c kd) (rsG P Vs n c kd)) g) with
    | error e => rw [h1] at h; simp at h
    | ok x =>
      rw [h1] at h
      simp only at h
      cases h2 : equivJets P Vs n c E t x with
      | error e => rw [h2] at h; simp at h
      | ok l' =>
        rw [h2] at h
        simp only [pure, Except.pure, Except.ok.injEq] at h
        subst h
        obtain ⟨i1, i2⟩ := ih h2
        refine ⟨by rw [List.map_cons, i1], fun e he => ?_⟩
        rcases List.mem_cons.1 he with rfl | he
        · have hr : 0 ≤ rsG P Vs n c kd := by
            unfold rsG
            cases P.nodes - 1 with
            | zero => simp only [rG]; positivity
            | succ k => simp only [rG]; positivity
          have := hE.two _ _ _ (found_ok h1)
          simp only [equivalent, Prod.mk.injEq] at this
          simp only
          rw [Jet.thrust_hat hr, Jet.torque_hat hr]
          exact ⟨by linarith [this.1], by linarith [this.2]⟩
        · exact i2 e he

/-- **C125, the mixing region.** What the equations of the zone of flow establishment add for the region outside the potential core is the
exact excess momentum of the bell-shaped profile that begins at the edge of the core. -/
theorem C125_mixing (z : Zfe) (Vs sU : ℝ) (hb : 0 < z.b) (hu : z.Ume Vs sU ≠ 0) :
    z.ax2 Vs sU = ∫ r in Set.Ioi z.Rpc, Jet.bell z.b (z.Ume Vs sU) (r - z.Rpc) * (Jet.bell z.b (z.Ume Vs sU) (r - z.Rpc) + Vs) * r := by
  rw [Jet.shifted_bell hb]
  unfold Zfe.ax2
  have : Real.sqrt 2 ≠ 0 := by positivity
  generalize z.Ume Vs sU = u at *
  field_simp
  norm_num
  ring

/-- **C126, what holds.** If the velocities are found, every point that is not behind the disc, or further off the axis than the radius of the
disc plus its distance behind it, gets no velocity, and no point gets a velocity towards the axis or away from it. -/
theorem C126_partial {ι : Type} (P : PropM ι) (E : Ext) (Vs n : ℝ) (c : Coefs) (fuel : ℕ) (pts l : List V3)
    (h : goates P E Vs n c fuel pts = .ok l) : l.length = pts.length ∧ ∀ i (hi : i < pts.length) (hi' : i < l.length),
      (0 ≤ dot (pts[i] - P.geom.position) P.fwd ∨ P.geom.diameter / 2 - dot (pts[i] - P.geom.position) P.fwd <
        nrm (pts[i] - P.geom.position - dot (pts[i] - P.geom.position) P.fwd • P.fwd) → l[i] = 0) ∧
      dot l[i] (pts[i] - P.geom.position - dot (pts[i] - P.geom.position) P.fwd • P.fwd) = 0 := by
  have hx : ∀ p, coneX P p = -dot (p - P.geom.position) P.fwd := by
    intro p
    unfold coneX dot
    simp
    ring
  have ho : ∀ p, coneOff P p = p - P.geom.position - dot (p - P.geom.position) P.fwd • P.fwd := by
    intro p
    unfold coneOff
    rw [hx]
    ext <;> simp <;> ring
  have hff : dot P.fwd P.fwd = 1 := by
    unfold PropM.fwd
    exact dot_fwd _
  classical
  simp only [goates, bind, Except.bind] at h
  cases h1 : solveJet P E Vs n c fuel ((pts.filter fun p => decide (InCone P p)).map (coneX P)) with
  | error e => rw [h1] at h; simp at h
  | ok s =>
    rw [h1] at h
    simp only at h
    split at h
    · simp at h
    · simp only [pure, Except.pure, Except.ok.injEq] at h
      subst h
      refine ⟨by simp, fun i hi hi' => ?_⟩
      simp only [List.getElem_map]
      refine ⟨fun hout => ?_, ?_⟩
      · rw [if_neg]
        rintro ⟨a, b⟩
        rw [hx] at b
        rcases hout with h | h
        · linarith
        · rw [hx] at a
          have := le_abs_self (coneR P pts[i])
          rw [coneR, ho] at this
          rw [coneR, ho] at a
          unfold PropM.d at a
          linarith
      · by_cases hc : InCone P pts[i]
        · rw [if_pos hc, ← ho]
          have hperp : dot P.fwd (coneOff P pts[i]) = 0 := by
            rw [ho]
            generalize hq : pts[i] - P.geom.position = q
            have : dot P.fwd (q - dot q P.fwd • P.fwd) = dot q P.fwd * (1 - dot P.fwd P.fwd) := by
              simp only [dot, V3.sub_x, V3.sub_y, V3.sub_z, V3.smul_x, V3.smul_y, V3.smul_z]
              ring
            rw [this, hff]
            ring
          generalize coneOff P pts[i] = o at *
          generalize 1 / coneR P pts[i] = k
          generalize velocity P E Vs n c s (coneX P pts[i]) (coneR P pts[i]) = v
          simp only [dot, cross, V3.add_x, V3.add_y, V3.add_z, V3.smul_x, V3.smul_y, V3.smul_z, V3.neg_x, V3.neg_y, V3.neg_z] at hperp ⊢
          linear_combination -v.1 * hperp
        · rw [if_neg hc]
          simp [dot]

/-- **C126 fails**: if no point lies in the stream, the call does not return zeros; it raises `ValueError`.  The example is a point ahead of the example
propeller. -/
theorem C126_refuted : ∃ (P : PropM ℕ) (p : V3), mkPropM (fun _ _ => 0) demoProp 0 none none = .ok P ∧
    0 < dot (p - P.geom.position) P.fwd ∧ ∀ (E : Ext) (Vs n : ℝ) (c : Coefs) (fuel : ℕ),
      goates P E Vs n c fuel [p] = .error .value ∧ goates P E Vs n c fuel [] = .error .value := by
  obtain ⟨P, hP, -⟩ := demo_ok (ι := ℕ) (fun _ _ => 0) 0 none none
  have hpos : P.geom.position = ⟨-1, 0, 0⟩ := by rw [(mkPropM_ok hP).2.2.1]; rfl
  have hf : P.fwd = propForward demoProp := by unfold PropM.fwd; rw [(mkPropM_ok hP).2.2.1]
  have hff : dot (propForward demoProp) (propForward demoProp) = 1 := dot_fwd demoProp
  refine ⟨P, P.geom.position + P.fwd, hP, ?_, fun E Vs n c fuel => ⟨?_, ?_⟩⟩
  · rw [show P.geom.position + P.fwd - P.geom.position = P.fwd by ext <;> simp, hf, hff]
    norm_num
  · have : ¬ InCone P (P.geom.position + P.fwd) := by
      rintro ⟨-, h⟩
      unfold coneX at h
      rw [show P.geom.position + P.fwd - P.geom.position = P.fwd by ext <;> simp, hf] at h
      have e : dot (propForward demoProp) (-propForward demoProp) = -dot (propForward demoProp) (propForward demoProp) := by
        simp only [dot, V3.neg_x, V3.neg_y, V3.neg_z]; ring
      rw [e, hff] at h
      norm_num at h
    simp [goates, solveJet, this, bind, Except.bind]
  · simp [goates, solveJet, bind, Except.bind]

/-- the propeller with another sense of rotation -/
def spun {ι : Type} (P : PropM ι) (rd : RotArg) : PropM ι := { P with geom := { P.geom with rotDir := rd } }

section
variable {ι : Type} (P : PropM ι) (rd : RotArg) (E : Ext) (Vs n : ℝ) (c : Coefs)

theorem rG_spun : rG (spun P rd) Vs n c = rG P Vs n c := by
  funext kd i
  induction i with
  | zero => rfl
  | succ i ih => simp only [rG, ih]; rfl

theorem vtG_spun : vtG (spun P rd) Vs n c = vtG P Vs n c := by
  funext kd i
  unfold vtG hubVt vt0
  rw [rG_spun]
  rfl

theorem msG_spun : msG (spun P rd) Vs n c = msG P Vs n c := by
  funext kd
  unfold msG
  rw [rG_spun, vtG_spun]
  rfl

theorem lsG_spun : lsG (spun P rd) Vs n c = lsG P Vs n c := by
  funext kd
  unfold lsG
  rw [rG_spun, vtG_spun]
  rfl

theorem rsG_spun : rsG (spun P rd) Vs n c = rsG P Vs n c := by
  funext kd
  unfold rsG
  rw [rG_spun]
  rfl

theorem btG_spun : btG (spun P rd) Vs n c = btG P Vs n c := by
  funext kd
  unfold btG
  rw [msG_spun, lsG_spun, rsG_spun]

theorem discFinite_spun : DiscFinite (spun P rd) Vs n c = DiscFinite P Vs n c := by
  funext kd
  unfold DiscFinite
  rw [rG_spun, msG_spun, lsG_spun, rsG_spun]
  rfl

theorem equivJets_spun (kds : List ℝ) (g : ℝ × ℝ) : equivJets (spun P rd) Vs n c E kds g = equivJets P Vs n c E kds g := by
  induction kds generalizing g with
  | nil => rfl
  | cons kd t ih => simp only [equivJets, ih, msG_spun, lsG_spun, rsG_spun]

theorem section_spun : section_ (spun P rd) Vs n c = section_ P Vs n c := by
  funext jets xe bxe x
  unfold section_
  rw [rG_spun, vtG_spun, msG_spun, lsG_spun, rsG_spun]
  rfl

theorem velocity_spun : velocity (spun P rd) E Vs n c = velocity P E Vs n c := by
  funext s x r
  unfold velocity
  rw [section_spun]

theorem solveJet_spun : solveJet (spun P rd) E Vs n c = solveJet P E Vs n c := by
  funext fuel xs
  have e1 : EndFinite (spun P rd) Vs n c = EndFinite P Vs n c := rfl
  have e2 : xEnd0 (spun P rd) Vs n c = xEnd0 P Vs n c := rfl
  have e3 : devel (spun P rd) = devel P := rfl
  unfold solveJet
  have e4 : equivJets (spun P rd) Vs n c E = equivJets P Vs n c E := by
    funext kds g
    exact equivJets_spun P rd E Vs n c kds g
  rw [e1, e2, e3, e4, discFinite_spun, section_spun, msG_spun, lsG_spun, btG_spun]

/-- **C126, the sense of rotation is not used**: two propellers that differ only in their sense of rotation swirl the air the same way. -/
theorem C126_rotation (fuel : ℕ) (pts : List V3) :
    goates { P with geom := { P.geom with rotDir := rd } } E Vs n c fuel pts = goates P E Vs n c fuel pts := by
  show goates (spun P rd) E Vs n c fuel pts = _
  unfold goates
  rw [solveJet_spun, velocity_spun]
  rfl
end

/-! ### The hypotheses are met -/

open Classical in
/-- a root finder that tries its guess and one more point, and a stepper that leaves the width as it is -/
noncomputable def tryRoots : Ext where
  root2 f g := if f g = (0, 0) then some g else none
  root3 f g := if f g = (0, 0, 0) then some g else if f (Real.sqrt 2, 1 / 2, 0) = (0, 0, 0) then some (Real.sqrt 2, 1 / 2, 0) else none
  step _ t y t' := Act.ret (true, t', y)
  cubic _ _ := 0
  junk _ := 0

theorem tryRoots_sound : SoundRoots tryRoots := by
  refine ⟨fun f g x h => ?_, fun f g x h => ?_⟩
  · simp only [tryRoots] at h
    split at h
    · next h' => simp only [Option.some.injEq] at h; rw [← h]; exact h'
    · simp at h
  · simp only [tryRoots] at h
    split at h
    · next h' => simp only [Option.some.injEq] at h; rw [← h]; exact h'
    · split at h
      · next h' => simp only [Option.some.injEq] at h; rw [← h]; exact h'
      · simp at h

/-- C125: a jet into still air, followed over two stations -/
example : integrateZEF tryRoots 0 2 1 (1 / 4) 0 1 0 50 0 51 =
    .ok [⟨50, Real.sqrt 2, 1 / 2, 0, 1, 1, 0⟩, ⟨51, Real.sqrt 2, 1 / 2, 0, 1, 1, 0⟩] ∧ (0 : ℝ) ≤ Real.sqrt 2 := by
  refine ⟨?_, Real.sqrt_nonneg 2⟩
  have h2 : Real.sqrt 2 * Real.sqrt 2 = 2 := Real.mul_self_sqrt (by norm_num)
  have r1 : tryRoots.root3 (tophatAtXe 0 1 1 (1 / 4) 0) (1, 1 / 2, 0 / 2) = some (Real.sqrt 2, 1 / 2, 0) := by
    simp only [tryRoots]
    rw [if_neg (by simp only [tophatAtXe, Prod.mk.injEq]; norm_num), if_pos]
    simp only [tophatAtXe, Prod.mk.injEq]
    rw [h2]
    norm_num
  have r2 : tryRoots.root2 (tophat 0 (Real.sqrt 2) (1 / 4) 0) (1 / 2, 0) = some (1 / 2, 0) := by
    simp only [tryRoots]
    rw [if_pos]
    simp only [tophat, Prod.mk.injEq]
    rw [h2]
    norm_num
  have r3 : tryRoots.root3 (selfSimilar 0 (Real.sqrt 2) (1 / 4) 0 (1 / 2)) (1, 1, 0) = some (1, 1, 0) := by
    simp only [tryRoots]
    rw [if_pos]
    have ha : angularMom 0 1 1 0 = 0 := by
      simp [angularMom, trapz, swirlL]
    simp only [selfSimilar, Prod.mk.injEq, ha, h2, axialMom]
    norm_num
  have hm : (march tryRoots 0 (1 / 4) 0 0 (50 / 50) 51 2 true 50 (Real.sqrt 2) (1 / 2, 0)).1 = .ok [(51, Real.sqrt 2)] := by
    rw [march, if_pos (by norm_num)]
    have h1 : (march tryRoots 0 (1 / 4) 0 0 (50 / 50) 51 1 true 51 (Real.sqrt 2) : Act (ℝ × ℝ) (List (ℝ × ℝ))) = Act.ret [] := by
      rw [march, if_neg (by norm_num)]
      rfl
    have h2 : (50 : ℝ) + 50 / 50 = 51 := by norm_num
    have h3 : tryRoots.step (expansion tryRoots 0 (1 / 4) 0 0) 50 (Real.sqrt 2) (50 + 50 / 50) = Act.ret (true, 51, Real.sqrt 2) := by
      rw [h2]
      rfl
    rw [h3]
    show ((march tryRoots 0 (1 / 4) 0 0 (50 / 50) 51 1 true 51 (Real.sqrt 2) >>= fun l => Act.ret ((51, Real.sqrt 2) :: l)) (1 / 2, 0)).1 = _
    rw [h1]
    rfl
  simp only [integrateZEF, r1, found, bind, Except.bind, hm, stations, r2, r3, pure, Except.pure]

/-- in still air there is always a jet with given thrust and torque -/
theorem still_jet {Rs : ℝ} (hR : 0 < Rs) (M L : ℝ) : ∃ x, equivalent 0 M L Rs x = (0, 0) := by
  set a := 2 * M / (Rs * Rs) with ha
  set b := 3 * L / (Rs * Rs * Rs) with hb
  have hM : M = a * (Rs * Rs) / 2 := by rw [ha]; field_simp
  have hL : L = b * (Rs * Rs * Rs) / 3 := by rw [hb]; field_simp
  have hs : 0 ≤ a ^ 2 + 2 * b ^ 2 := by positivity
  set t := (a + Real.sqrt (a ^ 2 + 2 * b ^ 2)) / 2 with ht
  have hq := Real.sq_sqrt hs
  have hge : |a| ≤ Real.sqrt (a ^ 2 + 2 * b ^ 2) := Real.abs_le_sqrt (by nlinarith [sq_nonneg b])
  have ht0 : 0 ≤ t := by
    have := neg_abs_le a
    rw [ht]; linarith
  have hroot : t * t - a * t - b ^ 2 / 2 = 0 := by
    rw [ht]
    linear_combination hq / 4
  rcases eq_or_lt_of_le ht0 with h0 | h0
  · rw [← h0] at hroot
    have hb0 : b = 0 := by nlinarith
    have ha0 : a ≤ 0 := by
      have := Real.sqrt_nonneg (a ^ 2 + 2 * b ^ 2)
      have h1 : a + Real.sqrt (a ^ 2 + 2 * b ^ 2) = 0 := by linarith
      linarith
    refine ⟨(0, Real.sqrt (-2 * a)), ?_⟩
    have := Real.mul_self_sqrt (by linarith : 0 ≤ -2 * a)
    simp only [equivalent, Prod.mk.injEq]
    rw [hM, hL, hb0]
    exact ⟨by linear_combination -(Rs * Rs / 4) * this, by ring⟩
  · have hU := Real.mul_self_sqrt h0.le
    have hU0 : Real.sqrt t ≠ 0 := (Real.sqrt_pos.2 h0).ne'
    refine ⟨(Real.sqrt t, b / Real.sqrt t), ?_⟩
    have hW : b / Real.sqrt t * (b / Real.sqrt t) = b ^ 2 / t := by
      rw [div_mul_div_comm, hU]; ring
    have hUW : Real.sqrt t * (b / Real.sqrt t) = b := by field_simp
    have hbt : b ^ 2 / t / 2 = t - a := by
      field_simp
      linear_combination -2 * hroot
    simp only [equivalent, Prod.mk.injEq, add_zero]
    rw [hM, hL, hW]
    exact ⟨by linear_combination (Rs * Rs / 2) * hU - (Rs * Rs / 2) * hbt, by linear_combination (Rs * Rs * Rs / 3) * hUW⟩

/-- C125: the equivalent jet of the example propeller in still air -/
example : ∃ P : PropM ℕ, mkPropM (fun _ _ => 0) demoProp 0 none none = .ok P ∧ 0 ≤ P.d ∧ ∀ (n : ℝ) (c : Coefs) (kd : ℝ), 0 < kd →
    ∃ g l, equivJets P 0 n c tryRoots [kd] g = .ok l := by
  obtain ⟨P, hP, hn, hd, hst⟩ := demo_ok (ι := ℕ) (fun _ _ => 0) 0 none none
  refine ⟨P, hP, by rw [hd]; norm_num, fun n c kd hkd => ?_⟩
  have hrad := radii_increase hP (by norm_num [demoProp]) (by norm_num [demoProp]) (by norm_num [demoProp])
  have hR : 0 < rsG P 0 n c kd := by
    unfold rsG
    rw [hn]
    simp only [rG, hd]
    refine Real.sqrt_pos.2 ?_
    have h0 := hrad 0 (by norm_num [demoProp])
    have h1 := h0.2.2 (by norm_num [demoProp])
    have hk : 0 ≤ kvG P 0 n c kd 0 := by
      unfold kvG
      rw [mul_zero, zero_add, zero_add, mul_comm, ← div_div]
      refine div_nonneg ?_ hkd.le
      rcases eq_or_ne (vx2 P n c 0) 0 with h | h
      · rw [h]; simp
      · rw [div_self h]; norm_num
    have : 0 ≤ ((P.stn (0 + 1)).r * (P.stn (0 + 1)).r - (P.stn 0).r * (P.stn 0).r) * kvG P 0 n c kd 0 := by
      refine mul_nonneg ?_ hk
      nlinarith [h0.2.1]
    norm_num at this ⊢
    linarith
  obtain ⟨x, hx⟩ := still_jet hR (msG P 0 n c kd) (lsG P 0 n c kd)
  refine ⟨x, [(kd, x)], ?_⟩
  have : tryRoots.root2 (equivalent 0 (msG P 0 n c kd) (lsG P 0 n c kd) (rsG P 0 n c kd)) x = some x := by
    simp only [tryRoots]
    rw [if_pos hx]
  simp only [equivJets, this, found, bind, Except.bind, pure, Except.pure]

/-- C125: the mixing region of a jet of one unit per second -/
example : (0 : ℝ) < 1 ∧ (Zfe.mk 2 (fun _ => 2) (fun _ => 0) (fun i => i) 1 0 1 1 1.5 (1 / 2)).Ume 1 1 ≠ 0 := by
  refine ⟨one_pos, ?_⟩
  have h : npInterp 2 (fun i : ℕ => (i : ℝ)) (fun _ => (2 : ℝ)) (1 / 2) = 2 := by
    rw [npInterp_between (i := 0) (fun i hi => by push_cast; linarith) (by norm_num) (by norm_num) (by norm_num)]
    norm_num
  have e : Zfe.scU 1 (Zfe.mk 2 (fun _ => 2) (fun _ => 0) (fun i => i) 1 0 1 1 1.5 (1 / 2)) 1 = fun _ => 2 := by
    funext i
    norm_num [Zfe.scU]
  simp only [Zfe.Ume, Zfe.Rpc, e]
  norm_num at h ⊢
  rw [h]
  norm_num

end Verif
