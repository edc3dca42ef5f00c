import Verif.Model.PropSolve
import Verif.Lemmas.MU

/-! # Lemmas on the propeller model -/

namespace Verif
open V3 Act

section act
variable {S α β : Type}

@[simp] theorem lift_ok_run (a : α) (s : S) : (Act.lift (.ok a) : Act S α) s = (.ok a, s) := rfl
@[simp] theorem lift_error_run (e : PyErr) (s : S) : (Act.lift (.error e) : Act S α) s = (.error e, s) := rfl
@[simp] theorem lift_ok_bind (a : α) (f : α → Act S β) (s : S) : ((Act.lift (.ok a) : Act S α) >>= f) s = f a s := rfl
@[simp] theorem lift_error_bind (e : PyErr) (f : α → Act S β) (s : S) :
    ((Act.lift (.error e) : Act S α) >>= f) s = (.error e, s) := rfl

theorem lift_eq_ok {x : Except PyErr α} {s s' : S} {a : α} :
    (Act.lift x : Act S α) s = (.ok a, s') ↔ x = .ok a ∧ s' = s := by
  unfold Act.lift
  simp only [Prod.mk.injEq]
  exact and_congr_right fun _ => eq_comm

theorem finite_of {p : Prop} (h : p) (s : S) : (Act.finite p : Act S Unit) s = (.ok (), s) := by
  unfold Act.finite; rw [if_pos h]; rfl

theorem finite_eq_ok {p : Prop} {s s' : S} {u : Unit} :
    (Act.finite p : Act S Unit) s = (.ok u, s') ↔ p ∧ s' = s := by
  unfold Act.finite
  by_cases h : p
  · rw [if_pos h]; simp [h, eq_comm]
  · rw [if_neg h]; simp [h]

theorem allSome_of {n : ℕ} {f : ℕ → Option ℝ} (h : ∀ i, i < n → (f i).isSome) (s : S) :
    (Act.allSome n f : Act S _) s = (.ok (fun i => if i < n then (f i).getD 0 else 0), s) := by
  unfold Act.allSome; rw [if_pos h]; rfl

theorem allSome_eq_ok {n : ℕ} {f : ℕ → Option ℝ} {s s' : S} {g : ℕ → ℝ} :
    (Act.allSome n f : Act S _) s = (.ok g, s') ↔
      (∀ i, i < n → f i = some (g i)) ∧ g = (fun i => if i < n then (f i).getD 0 else 0) ∧ s' = s := by
  unfold Act.allSome
  by_cases h : ∀ i, i < n → (f i).isSome
  · rw [if_pos h]
    simp only [ret_run, Prod.mk.injEq, Except.ok.injEq]
    constructor
    · rintro ⟨rfl, rfl⟩
      refine ⟨fun i hi => ?_, rfl, rfl⟩
      obtain ⟨x, hx⟩ := Option.isSome_iff_exists.1 (h i hi)
      simp [hx, hi]
    · rintro ⟨-, rfl, rfl⟩
      exact ⟨rfl, rfl⟩
  · rw [if_neg h]
    simp only [raise_run, Prod.mk.injEq, reduceCtorEq, false_and, false_iff, not_and]
    intro h'
    exact absurd (fun i hi => by rw [h' i hi]; rfl) h

end act

/-! ### arctan2 -/

theorem arctan2_pos (y : ℝ) {x : ℝ} (hx : 0 < x) : arctan2 y x = Real.arctan (y / x) := by
  have h1 : |arctan2 y x| < Real.pi / 2 := Complex.abs_arg_lt_pi_div_two_iff.2 (.inl hx)
  rw [abs_lt] at h1
  have h2 : Real.tan (arctan2 y x) = y / x := Complex.tan_arg ⟨x, y⟩
  rw [← h2, Real.arctan_tan h1.1 h1.2]

theorem arctan_tan_sub {t a : ℝ} (h1 : -(Real.pi / 2) < t - a) (h2 : t - a < Real.pi / 2) (ht : Real.cos t ≠ 0)
    (ha : Real.cos a ≠ 0) :
    Real.arctan ((Real.tan t - Real.tan a) / (1 + Real.tan t * Real.tan a)) = t - a := by
  have hc : Real.cos (t - a) ≠ 0 := (Real.cos_pos_of_mem_Ioo ⟨h1, h2⟩).ne'
  have : (Real.tan t - Real.tan a) / (1 + Real.tan t * Real.tan a) = Real.tan (t - a) := by
    rw [Real.tan_eq_sin_div_cos, Real.tan_eq_sin_div_cos, Real.tan_eq_sin_div_cos, Real.sin_sub, Real.cos_sub]
    rw [Real.cos_sub] at hc
    have h : 1 + Real.sin t / Real.cos t * (Real.sin a / Real.cos a) ≠ 0 := by
      intro h
      apply hc
      field_simp at h
      linarith
    rw [div_eq_div_iff h hc]
    field_simp
  rw [this, Real.arctan_tan h1 h2]

theorem tan_denom {t a : ℝ} (hc : Real.cos (t - a) ≠ 0) (ht : Real.cos t ≠ 0) (ha : Real.cos a ≠ 0) :
    1 + Real.tan t * Real.tan a ≠ 0 := by
  intro h
  apply hc
  rw [Real.tan_eq_sin_div_cos, Real.tan_eq_sin_div_cos] at h
  field_simp at h
  rw [Real.cos_sub]
  linarith

/-! ### The axis -/

theorem dot_fwd (q : PropGeom) : dot (propForward q) (propForward q) = 1 := by
  simp only [propForward, dot]
  nlinarith [Real.sin_sq_add_cos_sq (rad q.orientation.1), Real.sin_sq_add_cos_sq (rad q.orientation.2)]

theorem nrm_fwd (q : PropGeom) : nrm (propForward q) = 1 := by
  unfold nrm; rw [dot_fwd, Real.sqrt_one]

theorem rot_cases (q : PropGeom) : q.rot = 1 ∨ q.rot = -1 := by
  unfold PropGeom.rot
  split <;> split_ifs <;> simp

/-! ### The constructor -/

/-- what a successful constructor call gives -/
theorem mkPropM_ok {ι : Type} {table : String → ℝ → ℝ} {q : PropGeom} {cg : V3} {units : Option String}
    {pts : Option (ι → V3)} {M : PropM ι} (h : mkPropM table q cg units pts = .ok M) :
    q.diameter ≠ 0 ∧ q.nodes ≠ 0 ∧ M.geom = q ∧ M.cg = cg ∧ M.units = units ∧ M.pts = pts ∧
    calcMotor q.motor = .ok M.motor ∧
    ∃ af, bladeAf q = .ok af ∧ ∀ i, i < q.nodes → ∃ beta cb,
      bladePitch table q (zetaAt q i) (zetaAt q i * q.diameter * 0.5) (af i).aL0 = .ok (some beta) ∧
      bladeChord table q (zetaAt q i) = .ok (some cb) ∧
      mkStn q (zetaAt q i) (zetaAt q i * q.diameter * 0.5) (af i) beta cb = some (M.stn i) := by
  unfold mkPropM at h
  split_ifs at h with h1 h2
  rcases haf : bladeAf q with e | af
  · rw [haf] at h; cases h
  rw [haf] at h
  simp only [bind, Except.bind] at h
  rcases hp : bladePitch table q (zetaAt q 0) (zetaAt q 0 * q.diameter * 0.5) (af 0).aL0 with e | b
  · rw [hp] at h; cases h
  rw [hp] at h
  simp only at h
  rcases hc : bladeChord table q (zetaAt q 0) with e | cb
  · rw [hc] at h; cases h
  rw [hc] at h
  simp only at h
  rcases hm : calcMotor q.motor with e | mo
  · rw [hm] at h; cases h
  rw [hm] at h
  simp only at h
  split_ifs at h with h3
  · cases h
    refine ⟨h1, h2, rfl, rfl, rfl, rfl, rfl, af, rfl, fun i hi => ?_⟩
    have := h3 i hi
    simp only
    unfold stnAt at this ⊢
    rcases hpi : bladePitch table q (zetaAt q i) (zetaAt q i * q.diameter * 0.5) (af i).aL0 with e | (_ | b)
    · rw [hpi] at this; simp at this
    · rw [hpi] at this; simp at this
    rcases hci : bladeChord table q (zetaAt q i) with e | (_ | cb)
    · rw [hpi, hci] at this; simp at this
    · rw [hpi, hci] at this; simp at this
    rw [hpi, hci] at this
    simp only at this
    refine ⟨b, cb, rfl, rfl, ?_⟩
    obtain ⟨x, hx⟩ := Option.isSome_iff_exists.1 this
    simp [hx]

end Verif
