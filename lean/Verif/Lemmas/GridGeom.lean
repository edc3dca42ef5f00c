import Verif.Lemmas.Stations
import Verif.Lemmas.GeometryPos

/-!
# Lemmas: tips, lengths, frames of segments; grids exist for well-formed planes
-/

namespace Verif
open V3

/-- right tip minus left tip of a segment -/
noncomputable def Seg.spanVec (s : Seg) : V3 :=
  let sw := s.sweep * Real.pi / 180
  let di := s.dihedral * Real.pi / 180
  match s.side with
  | .right => ⟨-(s.span * Real.sin sw / Real.cos sw), s.span * Real.cos di, -(s.span * Real.sin di)⟩
  | .left => ⟨s.span * Real.sin sw / Real.cos sw, s.span * Real.cos di, s.span * Real.sin di⟩

theorem addOff_ok {o : Option V3} {v w : V3} (h : addOff o v = .ok w) : ∃ u, o = some u ∧ w = u + v := by
  cases o with
  | none => simp [addOff] at h
  | some u => exact ⟨u, rfl, by simpa [addOff] using h.symm⟩

/-- Both tips finite: the sweep is not 90 degrees and the tips differ by `spanVec`. -/
theorem tip_diff {p : Plane} (hp : PlaneInv p) {s : Seg} (hs : s ∈ p.segments) {l r : V3}
    (hl : p.segPosition s .leftTip = .ok l) (hr : p.segPosition s .rightTip = .ok r) :
    Real.cos (s.sweep * Real.pi / 180) ≠ 0 ∧ r - l = s.spanVec := by
  obtain ⟨b, w, hb, hsw⟩ := mem_plane_segments hs
  rw [segPosition_succ hp hb hsw] at hl hr
  have key : ∀ v, addOff (s.tipOffset .leftTip) v = .ok l → addOff (s.tipOffset .rightTip) v = .ok r →
      Real.cos (s.sweep * Real.pi / 180) ≠ 0 ∧ r - l = s.spanVec := by
    intro v h1 h2
    obtain ⟨u1, k1, rfl⟩ := addOff_ok h1
    obtain ⟨u2, k2, rfl⟩ := addOff_ok h2
    clear h1 h2 hl hr
    unfold Seg.tipOffset at k1 k2
    unfold Seg.spanVec
    cases hsd : s.side <;> simp only [hsd] at k1 k2 ⊢
    · split at k1
      · simp at k1
      rename_i hc
      simp only [Option.some.injEq] at k1 k2
      subst k1; subst k2
      refine ⟨hc, ?_⟩
      ext <;> simp
    · split at k2
      · simp at k2
      rename_i hc
      simp only [Option.some.injEq] at k1 k2
      subst k1; subst k2
      refine ⟨hc, ?_⟩
      ext <;> simp
  cases hc : connTarget p s with
  | error e => rw [hc] at hl; simp at hl
  | ok o =>
    rw [hc] at hl hr
    cases o with
    | none => exact key _ hl hr
    | some qt =>
      obtain ⟨q, t'⟩ := qt
      simp only at hl hr
      cases hv : p.segPosition q t' with
      | error e => rw [hv] at hl; simp at hl
      | ok v => rw [hv] at hl hr; exact key v hl hr

theorem spanVec_dot (s : Seg) (hc : Real.cos (s.sweep * Real.pi / 180) ≠ 0) :
    dot s.spanVec s.spanVec = (s.span / Real.cos (s.sweep * Real.pi / 180)) ^ 2 := by
  have h1 := Real.sin_sq_add_cos_sq (s.sweep * Real.pi / 180)
  have h2 := Real.sin_sq_add_cos_sq (s.dihedral * Real.pi / 180)
  have key : (s.span * Real.sin (s.sweep * Real.pi / 180) / Real.cos (s.sweep * Real.pi / 180)) ^ 2 +
      (s.span * Real.cos (s.dihedral * Real.pi / 180)) ^ 2 + (s.span * Real.sin (s.dihedral * Real.pi / 180)) ^ 2 =
      (s.span / Real.cos (s.sweep * Real.pi / 180)) ^ 2 := by
    rw [show s.dihedral * Real.pi / 180 = Real.pi * s.dihedral / 180 by ring] at *
    have h3 : (s.span * Real.cos (Real.pi * s.dihedral / 180)) ^ 2 + (s.span * Real.sin (Real.pi * s.dihedral / 180)) ^ 2
        = s.span ^ 2 := by linear_combination s.span ^ 2 * h2
    rw [add_assoc, h3]
    field_simp
    linear_combination s.span ^ 2 * h1
  rw [← key]
  unfold Seg.spanVec dot
  cases s.side <;> simp only <;> ring

theorem spanVec_nrm (s : Seg) (hc : Real.cos (s.sweep * Real.pi / 180) ≠ 0) :
    nrm s.spanVec = |s.span| / |Real.cos (s.sweep * Real.pi / 180)| := by
  unfold nrm
  rw [spanVec_dot s hc, Real.sqrt_sq_eq_abs, abs_div]

/-- the spanwise vector of a frame -/
theorem frame_us (side : Side) (m w d : ℝ) :
    cross (frame side m w d).1 (frame side m w d).2 =
      ⟨0, -Real.cos (d * Real.pi / 180),
        match side with | .right => Real.sin (d * Real.pi / 180) | .left => -Real.sin (d * Real.pi / 180)⟩ := by
  have h := Real.sin_sq_add_cos_sq ((m - w) * Real.pi / 180)
  unfold frame
  cases side <;> simp only
  · ext
    · simp; ring
    · simp; linear_combination (- Real.cos (d * Real.pi / 180)) * h
    · simp; linear_combination (- Real.sin (d * Real.pi / 180)) * h
  · ext
    · simp; ring
    · simp; linear_combination (- Real.cos (d * Real.pi / 180)) * h
    · simp; linear_combination (Real.sin (d * Real.pi / 180)) * h

theorem frame_ua (side : Side) (m w d : ℝ) : dot (frame side m w d).1 (frame side m w d).1 = 1 := by
  have h := Real.sin_sq_add_cos_sq ((m - w) * Real.pi / 180)
  have h' := Real.sin_sq_add_cos_sq (d * Real.pi / 180)
  unfold frame
  cases side <;> simp only [dot] <;>
    linear_combination h + (Real.sin ((m - w) * Real.pi / 180)) ^ 2 * h'

theorem frame_un (side : Side) (m w d : ℝ) : dot (frame side m w d).2 (frame side m w d).2 = 1 := by
  have h := Real.sin_sq_add_cos_sq ((m - w) * Real.pi / 180)
  have h' := Real.sin_sq_add_cos_sq (d * Real.pi / 180)
  unfold frame
  cases side <;> simp only [dot] <;>
    linear_combination h + (Real.cos ((m - w) * Real.pi / 180)) ^ 2 * h'

theorem frame_uan (side : Side) (m w d : ℝ) : dot (frame side m w d).1 (frame side m w d).2 = 0 := by
  have h' := Real.sin_sq_add_cos_sq (d * Real.pi / 180)
  unfold frame
  cases side <;> simp only [dot] <;>
    linear_combination (- Real.sin ((m - w) * Real.pi / 180) * Real.cos ((m - w) * Real.pi / 180)) * h'

theorem frame_uss (side : Side) (m w d : ℝ) :
    dot (cross (frame side m w d).1 (frame side m w d).2) (cross (frame side m w d).1 (frame side m w d).2) = 1 := by
  rw [frame_us]
  have h' := Real.sin_sq_add_cos_sq (d * Real.pi / 180)
  cases side <;> simp only [dot] <;> linear_combination h'

theorem frame_mirror (m w d : ℝ) :
    (frame .left m w d).1 = mir (frame .right m w d).1 ∧ (frame .left m w d).2 = mir (frame .right m w d).2 := by
  unfold frame
  constructor <;> ext <;> simp

/-- the spanwise extent of a piece of the segment -/
theorem us_spanVec (s : Seg) (m w : ℝ) :
    dot (cross (frame s.side m w s.dihedral).1 (frame s.side m w s.dihedral).2) s.spanVec = -s.span := by
  rw [frame_us]
  have h' := Real.sin_sq_add_cos_sq (s.dihedral * Real.pi / 180)
  unfold Seg.spanVec
  cases s.side <;> simp only [dot] <;> linear_combination (- s.span) * h'

theorem lerp_mem {s a b : ℝ} (h0 : 0 ≤ s) (h1 : s ≤ 1) : min a b ≤ lerp s a b ∧ lerp s a b ≤ max a b := by
  unfold lerp
  rcases le_total a b with h | h
  · rw [min_eq_left h, max_eq_right h]; constructor <;> nlinarith
  · rw [min_eq_right h, max_eq_left h]; constructor <;> nlinarith

/-- flap chord fractions of a control surface with chord fractions in [0,1] -/
theorem flapChord_mem (s : Seg) (h0 : 0 ≤ s.cs.chordRoot ∧ s.cs.chordRoot ≤ 1) (h1 : 0 ≤ s.cs.chordTip ∧ s.cs.chordTip ≤ 1)
    {x : ℝ} (hx : s.covers x) : 0 ≤ s.flapChord x ∧ s.flapChord x ≤ 1 := by
  obtain ⟨hx1, hx2⟩ := hx
  have hw : 0 < s.csSpan.2 - s.csSpan.1 := by linarith
  have e : s.flapChord x = lerp ((x - s.csSpan.1) / (s.csSpan.2 - s.csSpan.1)) s.csChord.1 s.csChord.2 := by
    unfold Seg.flapChord lerp; field_simp; ring
  have hc : (0 ≤ s.csChord.1 ∧ s.csChord.1 ≤ 1) ∧ (0 ≤ s.csChord.2 ∧ s.csChord.2 ≤ 1) := by
    unfold Seg.csChord leftRight; cases s.side <;> simp [h0, h1]
  obtain ⟨m1, m2⟩ := lerp_mem (a := s.csChord.1) (b := s.csChord.2)
    (div_nonneg (by linarith : 0 ≤ x - s.csSpan.1) hw.le) ((div_le_one hw).2 (by linarith))
  rw [e]
  exact ⟨le_trans (le_min hc.1.1 hc.2.1) m1, le_trans m2 (max_le hc.1.2 hc.2.2)⟩

/-- flap chord as a function of the distance from the root -/
theorem flapChord_root (s : Seg) (x : ℝ) (hw : s.csSpan.2 - s.csSpan.1 ≠ 0) : s.flapChord x =
    s.cs.chordRoot + (rootStation s.side x - s.cs.spanRoot) / (s.cs.spanTip - s.cs.spanRoot) *
      (s.cs.chordTip - s.cs.chordRoot) := by
  unfold Seg.flapChord Seg.csSpan Seg.csChord leftRight rootStation at *
  cases hs : s.side <;> simp only [hs] at hw ⊢
  · have hw' : s.cs.spanTip - s.cs.spanRoot ≠ 0 := by intro h; apply hw; linarith
    rw [show (1 - s.cs.spanRoot - (1 - s.cs.spanTip)) = s.cs.spanTip - s.cs.spanRoot by ring]
    field_simp; ring
  · ring

theorem covers_iff (s : Seg) (x : ℝ) :
    s.covers x ↔ s.cs.spanRoot < rootStation s.side x ∧ rootStation s.side x < s.cs.spanTip := by
  unfold Seg.covers Seg.csSpan rootStation
  cases s.side <;> simp only
  · constructor <;> rintro ⟨h1, h2⟩ <;> constructor <;> linarith

/-! ### existence -/

theorem tip_exists {p : Plane} (hp : PlaneInv p)
    (hconn : ∀ (b : ℕ) (w : Wing), p.heap[b]? = some w → ∀ s ∈ w.segments, ∀ c, s.parent = .wing c →
      c < b ∧ s.connectAt = s.side.str ++ "_tip" ∧ ∃ wc q, p.heap[c]? = some wc ∧ q ∈ wc.segments ∧ q.side = s.side)
    (hsw : ∀ (b : ℕ) (w : Wing), p.heap[b]? = some w → ∀ s ∈ w.segments, Real.cos (s.sweep * Real.pi / 180) ≠ 0) :
    ∀ (b : ℕ) {w : Wing}, p.heap[b]? = some w → ∀ {s : Seg}, s ∈ w.segments → ∀ t, ∃ v, p.segPosition s t = .ok v := by
  intro b
  induction b using Nat.strong_induction_on with
  | _ b ih =>
    intro w hb s hs t
    have hoff : ∀ v, ∃ u, addOff (s.tipOffset t) v = .ok u := by
      intro v
      have hc := hsw b w hb s hs
      unfold Seg.tipOffset
      cases t <;> cases s.side <;> simp [hc, addOff]
    rw [segPosition_succ hp hb hs]
    cases hpar : s.parent with
    | none =>
      have : connTarget p s = .ok none := by unfold connTarget; rw [hpar]
      rw [this]; exact hoff _
    | plane =>
      have : connTarget p s = .ok none := by unfold connTarget; rw [hpar]
      rw [this]; exact hoff _
    | wing c =>
      obtain ⟨hlt, hloc, wc, q, hc, hq, hqs⟩ := hconn b w hb s hs c hpar
      obtain ⟨h1, h2⟩ := seg_of_side (hp.wing c wc hc) hq
      have hct : ∃ t', connTarget p s = .ok (some (q, t')) := by
        unfold connTarget
        rw [hpar, hloc]
        simp only [hc]
        cases hss : s.side with
        | right =>
          rw [show Side.right.str ++ "_tip" = "right" ++ "_" ++ "tip" from rfl, ofStr_right, if_pos rfl]
          simp only [h2 (hqs.trans hss)]
          exact ⟨_, rfl⟩
        | left =>
          rw [show Side.left.str ++ "_tip" = "left" ++ "_" ++ "tip" from rfl, ofStr_left, if_pos rfl]
          simp only [h1 (hqs.trans hss)]
          exact ⟨_, rfl⟩
      obtain ⟨t', hct⟩ := hct
      obtain ⟨v, hv⟩ := ih c hlt hc hq t'
      rw [hct]
      simp only [hv]
      exact hoff v

end Verif
