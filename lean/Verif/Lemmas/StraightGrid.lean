import Verif.Spec.StraightWing
import Verif.Thm.Grid
import Verif.Thm.FlapSection
import Verif.Thm.LLConditions
import Verif.Lemmas.LineWing

/-!
# Lemmas: the grid of a straight wing
-/

set_option linter.unusedSectionVars false

namespace Verif
open V3

theorem forall2_right {α β : Type*} {R : α → β → Prop} {l : List α} {m : List β} (h : List.Forall₂ R l m) {y : β} (hy : y ∈ m) :
    ∃ a ∈ l, R a y := by
  obtain ⟨k, hk, rfl⟩ := List.getElem_of_mem hy
  have hk' : k < l.length := by rw [List.Forall₂.length_eq h]; exact hk
  exact ⟨l[k], List.getElem_mem hk', (List.forall₂_iff_get.1 h).2 k hk' hk⟩

theorem forall2_pairwise {α β : Type*} {R : α → β → Prop} {P : α → α → Prop} {Q : β → β → Prop} {l : List α} {m : List β}
    (h : List.Forall₂ R l m) (hP : l.Pairwise P) (hPQ : ∀ a ∈ l, ∀ b ∈ l, ∀ x y, R a x → R b y → P a b → Q x y) :
    m.Pairwise Q := by
  induction h with
  | nil => exact .nil
  | @cons a x l m hax hlm ih =>
    cases hP with
    | cons h1 h2 =>
      refine .cons (fun y hy => ?_) (ih h2 fun a ha b hb => hPQ a (List.mem_cons_of_mem _ ha) b (List.mem_cons_of_mem _ hb))
      obtain ⟨b, hb, hby⟩ := forall2_right hlm hy
      exact hPQ a List.mem_cons_self b (List.mem_cons_of_mem _ hb) x y hax hby (h1 b hb)

theorem frame_flat (side : Side) (m w : ℝ) : frame side m w 0 =
    (⟨-Real.cos (rad (m - w)), 0, Real.sin (rad (m - w))⟩, ⟨-Real.sin (rad (m - w)), 0, -Real.cos (rad (m - w))⟩) := by
  unfold frame rad
  cases side <;> simp

/-- what the grid of a straight wing reports for a section of segment `s` -/
structure StraightSec (x z : ℝ) (s : Seg) (X : GridSec) : Prop where
  rcp : X.rcp = ⟨x, X.rcp.y, z⟩
  r1 : X.r1 = ⟨x, X.r1.y, z⟩
  r2 : X.r2 = ⟨x, X.r2.y, z⟩
  ay : X.r1.y < X.rcp.y
  yb : X.rcp.y < X.r2.y
  area : 0 < X.area
  cla : 0 ≤ X.cla
  claL : 0 ≤ X.left.cla
  claR : 0 ≤ X.right.cla
  sp : 0 < X.sp ∧ X.sp < 1
  ua : X.ua = ⟨-Real.cos (rad X.twist), 0, Real.sin (rad X.twist)⟩
  un : X.un = ⟨-Real.sin (rad X.twist), 0, -Real.cos (rad X.twist)⟩
  twist : ∃ t, 0 ≤ t ∧ t ≤ 1 ∧ X.twist = (1 - t) * s.mount + t * (s.mount - s.washout)
  flap : 0 ≤ X.flapEff

theorem straightSec {p : Plane} (hp : PlaneInv p) {co : Bool} {s : Seg} (hs : s ∈ p.segments) {v : List GridSec}
    (hv : segData p co s = .ok v) (hf : s.sweep = 0 ∧ s.dihedral = 0) (hz : 0 < s.span ∧ 0 < s.rootChord ∧ 0 < s.tipChord)
    (hc : 0 ≤ s.root.cla ∧ 0 ≤ s.tip.cla) {x y z : ℝ} (hl : p.segPosition s .leftTip = .ok ⟨x, y, z⟩) :
    v = (List.range s.n).map (segSection co s ⟨x, y, z⟩ ⟨x, y + s.span, z⟩) ∧
    (∀ k < s.n, (segSection co s ⟨x, y, z⟩ ⟨x, y + s.span, z⟩ k).r1.y = y + s.span * sC1 co s.n k ∧
      (segSection co s ⟨x, y, z⟩ ⟨x, y + s.span, z⟩ k).rcp.y = y + s.span * sCp co s.n k ∧
      (segSection co s ⟨x, y, z⟩ ⟨x, y + s.span, z⟩ k).r2.y = y + s.span * sC2 co s.n k ∧
      StraightSec x z s (segSection co s ⟨x, y, z⟩ ⟨x, y + s.span, z⟩ k)) := by
  obtain ⟨l, r, hl', hr, hd, -, -, hcf, rfl⟩ := segData_ok hv
  rw [hl] at hl'
  cases hl'
  obtain ⟨hsw, hsv⟩ := tip_diff hp hs hl hr
  have hspan : s.spanVec = ⟨0, s.span, 0⟩ := by
    unfold Seg.spanVec
    rw [hf.1, hf.2]
    cases s.side <;> simp
  have hr' : r = ⟨x, y + s.span, z⟩ := by
    have : r = (r - ⟨x, y, z⟩) + ⟨x, y, z⟩ := (sub_add_cancel _ _).symm
    rw [this, hsv, hspan]
    ext <;> simp; ring
  subst hr'
  refine ⟨rfl, fun k hk => ?_⟩
  have pt : ∀ t, segPoint ⟨x, y, z⟩ ⟨x, y + s.span, z⟩ t = ⟨x, y + s.span * t, z⟩ := fun t => by
    rw [segPoint_eq hd, hsv, hspan]
    ext <;> simp; ring
  have e1 : (segSection co s ⟨x, y, z⟩ ⟨x, y + s.span, z⟩ k).r1 = ⟨x, y + s.span * sC1 co s.n k, z⟩ := pt _
  have e2 : (segSection co s ⟨x, y, z⟩ ⟨x, y + s.span, z⟩ k).r2 = ⟨x, y + s.span * sC2 co s.n k, z⟩ := pt _
  have e3 : (segSection co s ⟨x, y, z⟩ ⟨x, y + s.span, z⟩ k).rcp = ⟨x, y + s.span * sCp co s.n k, z⟩ := pt _
  refine ⟨by rw [e1], by rw [e3], by rw [e2], ?_⟩
  obtain ⟨m1, m2⟩ := sCp_mem co hk
  have hcsw : 0 < Real.cos (s.sweep * Real.pi / 180) := by rw [hf.1]; simp
  have lerp_pos : ∀ {t a b : ℝ}, 0 ≤ t → t ≤ 1 → 0 < a → 0 < b → 0 < lerp t a b := fun {t a b} h0 h1 ha hb =>
    lt_of_lt_of_le (lt_min ha hb) (lerp_mem h0 h1).1
  have hch : 0 < (leftRight s.side s.rootChord s.tipChord).1 ∧ 0 < (leftRight s.side s.rootChord s.tipChord).2 := by
    unfold leftRight; cases s.side <;> exact ⟨by simp [hz.2], by simp [hz.2]⟩
  have haf : 0 ≤ (leftRight s.side s.root s.tip).1.cla ∧ 0 ≤ (leftRight s.side s.root s.tip).2.cla := by
    unfold leftRight; cases s.side <;> exact ⟨by simp [hc], by simp [hc]⟩
  have hn1 := sC1_nonneg co hk
  have hn2 := sC2_le_one co hk
  have hlt1 := sC1_lt_sCp co hk
  have hlt2 := sCp_lt_sC2 co hk
  have htw : ∃ t, 0 ≤ t ∧ t ≤ 1 ∧ (segSection co s ⟨x, y, z⟩ ⟨x, y + s.span, z⟩ k).twist =
      (1 - t) * s.mount + t * (s.mount - s.washout) := by
    show ∃ t, 0 ≤ t ∧ t ≤ 1 ∧ s.mount - lerp (sCp co s.n k) (leftRight s.side 0 s.washout).1 (leftRight s.side 0 s.washout).2 = _
    unfold leftRight lerp
    cases s.side
    · exact ⟨1 - sCp co s.n k, by linarith, by linarith, by simp only; ring⟩
    · exact ⟨sCp co s.n k, by linarith, by linarith, by simp only; ring⟩
  refine ⟨by rw [e3], by rw [e1], by rw [e2], ?_, ?_, ?_, ?_, haf.1, haf.2, ⟨m1, m2⟩, ?_, ?_, htw, ?_⟩
  · rw [e1, e3]; have := mul_lt_mul_of_pos_left hlt1 hz.1; simp only; linarith
  · rw [e2, e3]; have := mul_lt_mul_of_pos_left hlt2 hz.1; simp only; linarith
  · rw [segSection_area hd hsv hcsw hk, abs_of_pos hz.1]
    have c1 : 0 < (segSection co s ⟨x, y, z⟩ ⟨x, y + s.span, z⟩ k).c1 := lerp_pos hn1 (by linarith) hch.1 hch.2
    have c2 : 0 < (segSection co s ⟨x, y, z⟩ ⟨x, y + s.span, z⟩ k).c2 := lerp_pos (by linarith) hn2 hch.1 hch.2
    have h3 : 0 < sC2 co s.n k - sC1 co s.n k := by linarith
    have := hz.1
    positivity
  · exact le_trans (le_min haf.1 haf.2) (lerp_mem m1.le m2.le).1
  · show (frame s.side s.mount _ s.dihedral).1 = _
    rw [hf.2, frame_flat]
    rfl
  · show (frame s.side s.mount _ s.dihedral).2 = _
    rw [hf.2, frame_flat]
    rfl
  · unfold segSection
    dsimp only
    split
    · rename_i hcov
      obtain ⟨q1, q2⟩ := hcf k hk hcov
      exact (eff_range.2.1 s.cs.sealed _ q1 q2).1
    · exact le_rfl

/-- all sections of a straight wing, and how they lie relative to each other -/
theorem straight_grid {p : Plane} (hp : PlaneInv p) (hs : StraightWing p) {co : Bool} {g : Grid} (hg : mkGrid p co = .ok g) :
    ∃ x z, (∀ X ∈ g.data, ∃ s ∈ p.segments, StraightSec x z s X) ∧
      g.data.Pairwise fun X Y => X.r2.y ≤ Y.r1.y ∨ Y.r2.y ≤ X.r1.y := by
  obtain ⟨x, z, hline⟩ := hs.line
  obtain ⟨vs, hvs, hdata, -, -⟩ := mkGrid_ok hg
  refine ⟨x, z, fun X hX => ?_, ?_⟩
  · rw [hdata] at hX
    obtain ⟨X', hX', rfl⟩ := List.mem_map.1 hX
    obtain ⟨v, hv, hXv⟩ := List.mem_flatten.1 hX'
    obtain ⟨s, hsm, hsd⟩ := forall2_right hvs hv
    obtain ⟨y, hy⟩ := hline s hsm
    obtain ⟨rfl, h⟩ := straightSec hp hsm hsd (hs.flat s hsm) (hs.size s hsm) (hs.lifts s hsm) hy
    obtain ⟨k, hk, rfl⟩ := List.mem_map.1 hXv
    obtain ⟨-, -, -, h⟩ := h k (List.mem_range.1 hk)
    exact ⟨s, hsm, ⟨h.rcp, h.r1, h.r2, h.ay, h.yb, h.area, h.cla, h.claL, h.claR, h.sp, h.ua, h.un, h.twist, h.flap⟩⟩
  · rw [hdata, List.pairwise_map, List.pairwise_flatten]
    refine ⟨fun v hv => ?_, forall2_pairwise hvs hs.apart fun s hsm t htm v w hv hw hst X hX Y hY => ?_⟩
    · obtain ⟨s, hsm, hsd⟩ := forall2_right hvs hv
      obtain ⟨y, hy⟩ := hline s hsm
      obtain ⟨rfl, h⟩ := straightSec hp hsm hsd (hs.flat s hsm) (hs.size s hsm) (hs.lifts s hsm) hy
      rw [List.pairwise_map]
      refine List.pairwise_lt_range.imp_of_mem fun {i j} hi hj hij => ?_
      obtain ⟨-, -, h1, -⟩ := h i (List.mem_range.1 hi)
      obtain ⟨h2, -, -, -⟩ := h j (List.mem_range.1 hj)
      left
      show (segSection _ _ _ _ i).r2.y ≤ (segSection _ _ _ _ j).r1.y
      rw [h1, h2]
      have hm : sC2 co s.n i ≤ sC1 co s.n j := by
        rw [sC2_eq, sC1_eq]
        have hn : (0 : ℝ) < s.n := by exact_mod_cast lt_of_le_of_lt (Nat.zero_le _) (List.mem_range.1 hj)
        have hij' : (i : ℝ) + 1 ≤ j := by exact_mod_cast hij
        have hjn : (j : ℝ) ≤ s.n := by exact_mod_cast (List.mem_range.1 hj).le
        exact stFn_le co (by positivity) (by gcongr) (by rw [div_le_one hn]; exact hjn)
      have := mul_le_mul_of_nonneg_left hm (hs.size s hsm).1.le
      linarith
    · obtain ⟨ys, hys⟩ := hline s hsm
      obtain ⟨yt, hyt⟩ := hline t htm
      obtain ⟨rfl, h⟩ := straightSec hp hsm hv (hs.flat s hsm) (hs.size s hsm) (hs.lifts s hsm) hys
      obtain ⟨rfl, h'⟩ := straightSec hp htm hw (hs.flat t htm) (hs.size t htm) (hs.lifts t htm) hyt
      obtain ⟨i, hi, rfl⟩ := List.mem_map.1 hX
      obtain ⟨j, hj, rfl⟩ := List.mem_map.1 hY
      have hi := List.mem_range.1 hi
      have hj := List.mem_range.1 hj
      obtain ⟨a1, -, a2, -⟩ := h i hi
      obtain ⟨b1, -, b2, -⟩ := h' j hj
      show (segSection _ _ _ _ i).r2.y ≤ (segSection _ _ _ _ j).r1.y ∨ (segSection _ _ _ _ j).r2.y ≤ (segSection _ _ _ _ i).r1.y
      rw [a1, a2, b1, b2]
      have s1 := (hs.size s hsm).1
      have t1 := (hs.size t htm).1
      have p1 := mul_nonneg s1.le (sC1_nonneg co hi)
      have p2 := mul_le_mul_of_nonneg_left (sC2_le_one co hi) s1.le
      have p3 := mul_nonneg t1.le (sC1_nonneg co hj)
      have p4 := mul_le_mul_of_nonneg_left (sC2_le_one co hj) t1.le
      rcases hst _ _ hys hyt with h0 | h0
      · left; simp only at h0; linarith
      · right; simp only at h0; linarith

end Verif
