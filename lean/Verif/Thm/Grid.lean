import Verif.Lemmas.GridGeom
import Verif.Spec.Flap
import Verif.Thm.GridExists
import Mathlib.Analysis.SpecialFunctions.Integrals.Basic

/-!
# C09 – C16: the lifting-line grid

All theorems are about the grid `g` that `LLGrid` computes for a plane built by any history of API calls.
`SectionOf p g k s i x`: the arrays hold `x` for section `i` (from the left) of segment number `k`, which is `s`.
-/

namespace Verif
open V3

variable {nm : String} {pos : Option V3} {ops : List PlaneOp} {c : Bool} {g : Grid}

/-- **C09.** Corner stations start at 0, end at 1, strictly increase and are contiguous; the control station is
strictly inside its section; the discretisation is symmetric under `s ↦ 1 - s`; every `i < n` has a section. -/
theorem C09_partition (hg : mkGrid (built nm pos ops) c = .ok g) (k : ℕ) (s : Seg)
    (hs : (built nm pos ops).segments[k]? = some s) :
    (∀ i < s.n, ∃ x, SectionOf (built nm pos ops) g k s i x) ∧
    (∀ i x, SectionOf (built nm pos ops) g k s i x →
      i < s.n ∧ 0 ≤ x.s1 ∧ x.s1 < x.sp ∧ x.sp < x.s2 ∧ x.s2 ≤ 1 ∧ (i = 0 → x.s1 = 0) ∧ (i + 1 = s.n → x.s2 = 1)) ∧
    (∀ i x y, SectionOf (built nm pos ops) g k s i x → SectionOf (built nm pos ops) g k s (i + 1) y → y.s1 = x.s2) ∧
    (∀ i x y, SectionOf (built nm pos ops) g k s i x → SectionOf (built nm pos ops) g k s (s.n - 1 - i) y →
      y.s1 = 1 - x.s2 ∧ y.s2 = 1 - x.s1 ∧ y.sp = 1 - x.sp) := by
  refine ⟨fun i hi => sectionOf_exists hg hs hi, ?_, ?_, ?_⟩
  · intro i x hx
    obtain ⟨hi, l, r, _, _, _, _, _, rfl⟩ := sectionOf_eq hg hx
    refine ⟨hi, sC1_nonneg c hi, sC1_lt_sCp c hi, sCp_lt_sC2 c hi, sC2_le_one c hi, ?_, ?_⟩
    · rintro rfl; exact sC1_zero c s.n
    · exact sC2_last c
  · intro i x y hx hy
    obtain ⟨hi, l, r, _, _, _, _, _, rfl⟩ := sectionOf_eq hg hx
    obtain ⟨hj, l, r, _, _, _, _, _, rfl⟩ := sectionOf_eq hg hy
    exact sC1_succ c s.n i
  · intro i x y hx hy
    obtain ⟨hi, l, r, _, _, _, _, _, rfl⟩ := sectionOf_eq hg hx
    obtain ⟨hj, l, r, _, _, _, _, _, rfl⟩ := sectionOf_eq hg hy
    exact ⟨sC1_flip c hi, sC2_flip c hi, sCp_flip c hi⟩

/-- **C10.** Control and corner points are on the straight line between the tips, at their stations; the first corner
is the left tip, the last the right tip, and neighbours share a corner. -/
theorem C10_points (hg : mkGrid (built nm pos ops) c = .ok g) (k : ℕ) (s : Seg) (i : ℕ) (x : GridSec)
    (hx : SectionOf (built nm pos ops) g k s i x) :
    ∃ l r, (built nm pos ops).segPosition s .leftTip = .ok l ∧ (built nm pos ops).segPosition s .rightTip = .ok r ∧
      l ≠ r ∧
      x.rcp = l + x.sp • (r - l) ∧ x.r1 = l + x.s1 • (r - l) ∧ x.r2 = l + x.s2 • (r - l) ∧
      (i = 0 → x.r1 = l) ∧ (i + 1 = s.n → x.r2 = r) ∧
      (∀ y, SectionOf (built nm pos ops) g k s (i + 1) y → y.r1 = x.r2) := by
  obtain ⟨hi, l, r, hl, hr, hd, _, _, rfl⟩ := sectionOf_eq hg hx
  refine ⟨l, r, hl, hr, ?_, segPoint_eq hd _, segPoint_eq hd _, segPoint_eq hd _, ?_, ?_, ?_⟩
  · rintro rfl; simp at hd
  · rintro rfl
    show segPoint l r (sC1 c s.n 0) = l
    rw [segPoint_eq hd, sC1_zero]; simp
  · intro h
    show segPoint l r (sC2 c s.n i) = r
    rw [segPoint_eq hd, sC2_last c h]; simp
  · intro y hy
    obtain ⟨hj, l', r', hl', hr', _, _, _, rfl⟩ := sectionOf_eq hg hy
    have e1 : l' = l := by rw [hl] at hl'; simpa using hl'.symm
    have e2 : r' = r := by rw [hr] at hr'; simpa using hr'.symm
    subst e1; subst e2
    rfl

/-! ### C11 -/

theorem point_diff {l r : V3} (h : nrm (r - l) ≠ 0) (a b : ℝ) : segPoint l r b - segPoint l r a = (b - a) • (r - l) := by
  rw [segPoint_eq h, segPoint_eq h]; ext <;> simp <;> ring

theorem segSection_area {s : Seg} {l r : V3} (hd : nrm (r - l) ≠ 0) (hsv : r - l = s.spanVec)
    (hsw : 0 < Real.cos (s.sweep * Real.pi / 180)) {i : ℕ} (hi : i < s.n) (cosine : Bool) :
    (segSection cosine s l r i).area =
      |s.span| * (sC2 cosine s.n i - sC1 cosine s.n i) *
        ((segSection cosine s l r i).c1 + (segSection cosine s l r i).c2) / 2 := by
  have hlt := sC1_lt_sC2 cosine hi
  show Real.cos (s.sweep * Real.pi / 180) * nrm (segPoint l r _ - segPoint l r _) * _ / 2 = _
  rw [point_diff hd, nrm_smul_pos (by linarith), hsv, spanVec_nrm s hsw.ne', abs_of_pos hsw]
  have := hsw.ne'
  field_simp
  rfl

theorem sum_area {s : Seg} {l r : V3} (hd : nrm (r - l) ≠ 0) (hsv : r - l = s.spanVec)
    (hsw : 0 < Real.cos (s.sweep * Real.pi / 180)) (cosine : Bool) (hn : 0 < s.n) :
    ((List.range s.n).map fun i => (segSection cosine s l r i).area).sum =
      |s.span| * (s.rootChord + s.tipChord) / 2 := by
  obtain ⟨a, b, hab⟩ : ∃ a b, leftRight s.side s.rootChord s.tipChord = (a, b) := ⟨_, _, rfl⟩
  have habs : a + b = s.rootChord + s.tipChord := by
    unfold leftRight at hab
    cases hss : s.side <;> rw [hss] at hab <;> simp at hab
    · rw [← hab.1, ← hab.2]; ring
    · rw [← hab.1, ← hab.2]
  have e : ∀ i ∈ List.range s.n, (segSection cosine s l r i).area =
      (fun t => |s.span| * (t * a + t ^ 2 * (b - a) / 2)) (sC2 cosine s.n i) -
      (fun t => |s.span| * (t * a + t ^ 2 * (b - a) / 2)) (sC1 cosine s.n i) := by
    intro i hi
    rw [segSection_area hd hsv hsw (List.mem_range.1 hi)]
    have h1 : (segSection cosine s l r i).c1 = lerp (sC1 cosine s.n i) a b := by
      show lerp _ (leftRight s.side s.rootChord s.tipChord).1 _ = _
      rw [hab]
    have h2 : (segSection cosine s l r i).c2 = lerp (sC2 cosine s.n i) a b := by
      show lerp _ (leftRight s.side s.rootChord s.tipChord).1 _ = _
      rw [hab]
    rw [h1, h2]
    simp only [lerp]; ring
  rw [List.map_congr_left e, sum_telescope cosine hn (fun t => |s.span| * (t * a + t ^ 2 * (b - a) / 2)), ← habs]
  ring

/-- `get_section_areas()[slice]` of one segment -/
def Grid.areas (g : Grid) (ab : ℕ × ℕ) : List ℝ := (g.slice ab).map (·.area)

private theorem cos_pos_of_sweep {sw : ℝ} (h : |sw| < 90) : 0 < Real.cos (sw * Real.pi / 180) := by
  rw [abs_lt] at h
  have hp := Real.pi_pos
  apply Real.cos_pos_of_mem_Ioo
  constructor <;> nlinarith

private theorem refOf_eq {p : Plane} (segs : List Seg) : ∀ vs,
    List.Forall₂ (fun s v => segData p c s = .ok v) segs vs →
    (∀ s ∈ segs, ∀ v, segData p c s = .ok v → s.isMain = true →
      (v.map (·.area)).sum = |s.span| * (s.rootChord + s.tipChord) / 2) →
    refOf segs vs = ((segs.filter (·.isMain)).map fun s => |s.span| * (s.rootChord + s.tipChord) / 2).sum := by
  induction segs with
  | nil => intro vs h _; cases h; simp [refOf]
  | cons s t ih =>
    intro vs h hall
    cases h with
    | cons hv ht =>
      rename_i v vs'
      have := ih vs' ht (fun s' hs' => hall s' (by simp [hs']))
      simp only [refOf]
      rw [this]
      cases hm : s.isMain with
      | true =>
        simp only [hm, if_true, List.filter_cons_of_pos, List.map_cons, List.sum_cons]
        rw [hall s (by simp) v hv hm]
      | false => simp [hm]

/-- **C11.** The areas of the sections of a segment add up to `semispan * (root_chord + tip_chord) / 2` (for a negative
semispan its absolute value), whatever the sweep below 90 degrees, dihedral, twist, position, attachment, number of
sections and spacing. -/
theorem C11_segment_area (hg : mkGrid (built nm pos ops) c = .ok g) (k : ℕ) (s : Seg)
    (hs : (built nm pos ops).segments[k]? = some s) (hsw : |s.sweep| < 90) (hn : 0 < s.n) (ab : ℕ × ℕ)
    (hab : g.slices[k]? = some ab) :
    (g.areas ab).sum = |s.span| * (s.rootChord + s.tipChord) / 2 := by
  have hp := built_inv nm pos ops
  obtain ⟨v, hv, he⟩ := slice_eq hg hs hab
  obtain ⟨l, r, hl, hr, hd, _, _, _, rfl⟩ := segData_ok hv
  obtain ⟨_, hsv⟩ := tip_diff hp (List.mem_of_getElem? hs) hl hr
  unfold Grid.areas
  rw [he, List.map_map, List.map_map]
  exact sum_area hd hsv (cos_pos_of_sweep hsw) c hn

/-- **C11, reference area.** The reference area is the sum of these planform areas over the segments of main wings. -/
theorem C11_reference_area (hg : mkGrid (built nm pos ops) c = .ok g)
    (hmain : ∀ s ∈ (built nm pos ops).segments, s.isMain = true → |s.sweep| < 90 ∧ 0 < s.n) :
    g.refArea = (((built nm pos ops).segments.filter (·.isMain)).map fun s =>
      |s.span| * (s.rootChord + s.tipChord) / 2).sum := by
  have hp := built_inv nm pos ops
  obtain ⟨vs, hvs, _, _, hra⟩ := mkGrid_ok hg
  rw [hra]
  apply refOf_eq _ _ hvs
  intro s hs v hv hm
  obtain ⟨l, r, hl, hr, hd, _, _, _, rfl⟩ := segData_ok hv
  obtain ⟨_, hsv⟩ := tip_diff hp hs hl hr
  obtain ⟨h1, h2⟩ := hmain s hs hm
  rw [List.map_map]
  exact sum_area hd hsv (cos_pos_of_sweep h1) c h2

/-! ### C12 -/

/-- **C12.** At every section the axial, normal and spanwise vectors are orthonormal, spanwise is axial × normal, and
it depends only on the side and dihedral of the segment. -/
theorem C12_frames (hg : mkGrid (built nm pos ops) c = .ok g) (k : ℕ) (s : Seg) (i : ℕ) (x : GridSec)
    (hx : SectionOf (built nm pos ops) g k s i x) :
    dot x.ua x.ua = 1 ∧ dot x.un x.un = 1 ∧ dot x.us x.us = 1 ∧
    dot x.ua x.un = 0 ∧ dot x.ua x.us = 0 ∧ dot x.un x.us = 0 ∧
    x.us = cross x.ua x.un ∧
    x.us = ⟨0, -Real.cos (s.dihedral * Real.pi / 180),
      match s.side with
      | .right => Real.sin (s.dihedral * Real.pi / 180)
      | .left => -Real.sin (s.dihedral * Real.pi / 180)⟩ := by
  obtain ⟨hi, l, r, _, _, _, _, _, rfl⟩ := sectionOf_eq hg hx
  refine ⟨frame_ua _ _ _ _, frame_un _ _ _ _, frame_uss _ _ _ _, frame_uan _ _ _ _, ?_, ?_, rfl, frame_us _ _ _ _⟩
  · exact dot_cross_self _ _
  · exact dot_cross_self' _ _

/-- washout at mirrored stations -/
theorem lerp_flip (s a b : ℝ) : lerp (1 - s) b a = lerp s a b := by simp [lerp]; ring

/-- **C12, mirror.** On a two-sided wing the frame of the left section as far from the root as a right section is its
mirror image: axial and normal vectors are mirrored (hence the spanwise vector, which keeps pointing from right to left,
is mirrored and reversed). -/
theorem C12_mirror (hg : mkGrid (built nm pos ops) c = .ok g) (b kl kr : ℕ) (l r : Seg)
    (hb : (built nm pos ops).heap[b]? = some (.both l r)) (i : ℕ) (x y : GridSec)
    (hx : SectionOf (built nm pos ops) g kr r i x) (hy : SectionOf (built nm pos ops) g kl l (r.n - 1 - i) y) :
    y.ua = mir x.ua ∧ y.un = mir x.un ∧ y.us = -mir x.us := by
  have ht := ((built_inv nm pos ops).wing b _ hb).twin _ _ rfl
  obtain ⟨hi, l1, r1, _, _, _, _, _, rfl⟩ := sectionOf_eq hg hx
  obtain ⟨hj, l2, r2, _, _, _, _, _, rfl⟩ := sectionOf_eq hg hy
  have hw : lerp (sCp c l.n (r.n - 1 - i)) (leftRight l.side 0 l.washout).1 (leftRight l.side 0 l.washout).2 =
      lerp (sCp c r.n i) (leftRight r.side 0 r.washout).1 (leftRight r.side 0 r.washout).2 := by
    rw [ht.n, sCp_flip c hi, ht.lside, ht.rside, ht.washout]
    exact lerp_flip _ _ _
  have key : frame l.side l.mount (lerp (sCp c l.n (r.n - 1 - i)) (leftRight l.side 0 l.washout).1
        (leftRight l.side 0 l.washout).2) l.dihedral =
      (mir (frame r.side r.mount (lerp (sCp c r.n i) (leftRight r.side 0 r.washout).1
        (leftRight r.side 0 r.washout).2) r.dihedral).1,
       mir (frame r.side r.mount (lerp (sCp c r.n i) (leftRight r.side 0 r.washout).1
        (leftRight r.side 0 r.washout).2) r.dihedral).2) := by
    rw [hw, ht.lside, ht.rside, ht.mount, ht.dihedral]
    exact Prod.ext (frame_mirror _ _ _).1 (frame_mirror _ _ _).2
  have k1 := congrArg Prod.fst key
  have k2 := congrArg Prod.snd key
  refine ⟨k1, k2, ?_⟩
  show cross (frame _ _ _ _).1 (frame _ _ _ _).2 = -mir (cross (frame _ _ _ _).1 (frame _ _ _ _).2)
  rw [k1, k2]
  ext <;> simp <;> ring

/-! ### C13 -/

/-- `v` is the linear interpolation, at distance `t` from the root, between the value at the root and at the tip. -/
def Interp (t root tip v : ℝ) : Prop := v = (1 - t) * root + t * tip

theorem Interp.bounds {t root tip v : ℝ} (h : Interp t root tip v) (h0 : 0 ≤ t) (h1 : t ≤ 1) :
    min root tip ≤ v ∧ v ≤ max root tip := by
  unfold Interp at h
  subst h
  rcases le_total root tip with h | h
  · rw [min_eq_left h, max_eq_right h]; constructor <;> nlinarith
  · rw [min_eq_right h, max_eq_left h]; constructor <;> nlinarith

theorem lerp_interp (side : Side) (t root tip : ℝ) :
    Interp (rootStation side t) root tip (lerp t (leftRight side root tip).1 (leftRight side root tip).2) := by
  unfold Interp rootStation leftRight lerp
  cases side <;> simp <;> ring

theorem leftRight_map {α β : Type*} (f : α → β) (side : Side) (a b : α) :
    (f (leftRight side a b).1, f (leftRight side a b).2) = leftRight side (f a) (f b) := by cases side <;> rfl

theorem lerp_interp' {α : Type*} (f : α → ℝ) (side : Side) (t : ℝ) (root tip : α) :
    Interp (rootStation side t) (f root) (f tip) (lerp t (f (leftRight side root tip).1) (f (leftRight side root tip).2)) := by
  have h := leftRight_map f side root tip
  rw [Prod.ext_iff] at h
  simp only at h
  rw [h.1, h.2]
  exact lerp_interp side t _ _

/-- **C13.** Chord (at the control point and both corners), washout, lift slope, zero-lift angle, moment and drag
coefficients and maximum lift coefficient at a section are interpolated linearly between the root and the tip value,
with the distance measured from the root on either side; twist is mounting angle minus washout. -/
theorem C13_interpolation (hg : mkGrid (built nm pos ops) c = .ok g) (k : ℕ) (s : Seg) (i : ℕ) (x : GridSec)
    (hx : SectionOf (built nm pos ops) g k s i x) :
    Interp (rootStation s.side x.sp) s.rootChord s.tipChord x.chord ∧
    Interp (rootStation s.side x.s1) s.rootChord s.tipChord x.c1 ∧
    Interp (rootStation s.side x.s2) s.rootChord s.tipChord x.c2 ∧
    Interp (rootStation s.side x.sp) 0 s.washout x.washout ∧ x.twist = s.mount - x.washout ∧
    Interp (rootStation s.side x.sp) s.root.cla s.tip.cla x.cla ∧
    Interp (rootStation s.side x.sp) s.root.al0 s.tip.al0 x.al0 ∧
    Interp (rootStation s.side x.sp) s.root.cma s.tip.cma x.cma ∧
    Interp (rootStation s.side x.sp) s.root.cml0 s.tip.cml0 x.cml0 ∧
    Interp (rootStation s.side x.sp) s.root.cd0 s.tip.cd0 x.cd0 ∧
    Interp (rootStation s.side x.sp) s.root.cd1 s.tip.cd1 x.cd1 ∧
    Interp (rootStation s.side x.sp) s.root.cd2 s.tip.cd2 x.cd2 ∧
    Interp (rootStation s.side x.sp) s.root.clMax s.tip.clMax x.clMax ∧
    0 < rootStation s.side x.sp ∧ rootStation s.side x.sp < 1 := by
  obtain ⟨hi, l, r, _, _, _, _, _, rfl⟩ := sectionOf_eq hg hx
  have hm := sCp_mem c hi
  refine ⟨lerp_interp _ _ _ _, lerp_interp _ _ _ _, lerp_interp _ _ _ _, lerp_interp _ _ _ _, rfl,
    lerp_interp' Airfoil.cla _ _ _ _, lerp_interp' Airfoil.al0 _ _ _ _, lerp_interp' Airfoil.cma _ _ _ _,
    lerp_interp' Airfoil.cml0 _ _ _ _, lerp_interp' Airfoil.cd0 _ _ _ _, lerp_interp' Airfoil.cd1 _ _ _ _,
    lerp_interp' Airfoil.cd2 _ _ _ _, lerp_interp' Airfoil.clMax _ _ _ _, ?_, ?_⟩
  · show 0 < rootStation s.side (sCp c s.n i)
    unfold rootStation; cases s.side <;> simp only <;> linarith [hm.1, hm.2]
  · show rootStation s.side (sCp c s.n i) < 1
    unfold rootStation; cases s.side <;> simp only <;> linarith [hm.1, hm.2]

/-- **C13, bounds.** Hence every such value lies between the root and the tip value, and is constant if these agree. -/
theorem C13_bounded {side : Side} {sp root tip v : ℝ} (h : Interp (rootStation side sp) root tip v)
    (h0 : 0 < rootStation side sp) (h1 : rootStation side sp < 1) :
    min root tip ≤ v ∧ v ≤ max root tip ∧ (root = tip → v = root) := by
  refine ⟨(h.bounds h0.le h1.le).1, (h.bounds h0.le h1.le).2, ?_⟩
  rintro rfl
  rw [h]; ring

/-! ### C14 -/

theorem chordAt_eq (s : Seg) (t : ℝ) :
    s.chordAt t = lerp t (leftRight s.side s.rootChord s.tipChord).1 (leftRight s.side s.rootChord s.tipChord).2 :=
  (lerp_interp s.side t s.rootChord s.tipChord).symm

theorem integral_lerp_sq (a b s t : ℝ) : ∫ u in s..t, (lerp u a b) ^ 2 =
    (t - s) * ((lerp t a b) ^ 2 + lerp s a b * lerp t a b + (lerp s a b) ^ 2) / 3 := by
  have h : ∀ u : ℝ, (lerp u a b) ^ 2 = a ^ 2 + (2 * a * (b - a)) * u + (b - a) ^ 2 * u ^ 2 := by
    intro u; simp [lerp]; ring
  simp_rw [h]
  rw [intervalIntegral.integral_add, intervalIntegral.integral_add, intervalIntegral.integral_const_mul (2 * a * (b - a))]
  · simp only [intervalIntegral.integral_const, intervalIntegral.integral_const_mul, integral_id, integral_pow,
      smul_eq_mul, lerp]
    push_cast
    ring
  all_goals apply Continuous.intervalIntegrable; fun_prop

theorem segSection_ic2 {s : Seg} {l r : V3} (hd : nrm (r - l) ≠ 0) (hsv : r - l = s.spanVec) {i : ℕ} (hi : i < s.n)
    (cosine : Bool) : (segSection cosine s l r i).withIc2.ic2 =
      |s.span| * ∫ t in (sC1 cosine s.n i)..(sC2 cosine s.n i), s.chordAt t ^ 2 := by
  have hlt := sC1_lt_sC2 cosine hi
  simp_rw [chordAt_eq]
  rw [integral_lerp_sq]
  show |dot (cross (frame _ _ _ _).1 (frame _ _ _ _).2) (segPoint l r _ - segPoint l r _)| * _ / 3 = _
  rw [point_diff hd, dot_smul, hsv, us_spanVec, abs_mul, abs_neg, abs_of_pos (by linarith : 0 < sC2 cosine s.n i - sC1 cosine s.n i)]
  show (sC2 cosine s.n i - sC1 cosine s.n i) * |s.span| *
    (lerp _ (leftRight s.side s.rootChord s.tipChord).1 _ * lerp _ (leftRight s.side s.rootChord s.tipChord).1 _ +
     lerp _ (leftRight s.side s.rootChord s.tipChord).1 _ * lerp _ (leftRight s.side s.rootChord s.tipChord).1 _ +
     lerp _ (leftRight s.side s.rootChord s.tipChord).1 _ * lerp _ (leftRight s.side s.rootChord s.tipChord).1 _) / 3 = _
  ring

/-- **C14.** The chord-squared weight of a section is the integral of chord² over its spanwise length (`semispan` times
the integral over the stations it covers). -/
theorem C14_integral (hg : mkGrid (built nm pos ops) c = .ok g) (k : ℕ) (s : Seg) (i : ℕ) (x : GridSec)
    (hx : SectionOf (built nm pos ops) g k s i x) :
    x.ic2 = |s.span| * ∫ t in x.s1..x.s2, s.chordAt t ^ 2 := by
  have hp := built_inv nm pos ops
  obtain ⟨hi, l, r, hl, hr, hd, _, _, rfl⟩ := sectionOf_eq hg hx
  obtain ⟨_, hsv⟩ := tip_diff hp (List.mem_of_getElem? hx.1) hl hr
  exact segSection_ic2 hd hsv hi c

/-- **C14, total.** The weights of a segment add up to `semispan * (cr² + cr ct + ct²) / 3`. -/
theorem C14_total (hg : mkGrid (built nm pos ops) c = .ok g) (k : ℕ) (s : Seg)
    (hs : (built nm pos ops).segments[k]? = some s) (hn : 0 < s.n) (ab : ℕ × ℕ) (hab : g.slices[k]? = some ab) :
    ((g.slice ab).map (·.ic2)).sum =
      |s.span| * (s.rootChord ^ 2 + s.rootChord * s.tipChord + s.tipChord ^ 2) / 3 := by
  have hp := built_inv nm pos ops
  obtain ⟨v, hv, he⟩ := slice_eq hg hs hab
  obtain ⟨l, r, hl, hr, hd, _, _, _, rfl⟩ := segData_ok hv
  obtain ⟨_, hsv⟩ := tip_diff hp (List.mem_of_getElem? hs) hl hr
  rw [he, List.map_map, List.map_map]
  obtain ⟨a, b, hab'⟩ : ∃ a b, leftRight s.side s.rootChord s.tipChord = (a, b) := ⟨_, _, rfl⟩
  have habs : a ^ 2 + a * b + b ^ 2 = s.rootChord ^ 2 + s.rootChord * s.tipChord + s.tipChord ^ 2 := by
    unfold leftRight at hab'
    cases hss : s.side <;> rw [hss] at hab' <;> simp at hab'
    · rw [← hab'.1, ← hab'.2]; ring
    · rw [← hab'.1, ← hab'.2]
  have e : ∀ i ∈ List.range s.n, (((fun x : GridSec => x.ic2) ∘ GridSec.withIc2) ∘ segSection c s l r) i =
      (fun t => |s.span| * (a ^ 2 * t + a * (b - a) * t ^ 2 + (b - a) ^ 2 * t ^ 3 / 3)) (sC2 c s.n i) -
      (fun t => |s.span| * (a ^ 2 * t + a * (b - a) * t ^ 2 + (b - a) ^ 2 * t ^ 3 / 3)) (sC1 c s.n i) := by
    intro i hi
    show (segSection c s l r i).withIc2.ic2 = _
    rw [segSection_ic2 hd hsv (List.mem_range.1 hi)]
    simp_rw [chordAt_eq]
    rw [integral_lerp_sq, hab']
    simp only [lerp]; ring
  rw [List.map_congr_left e,
    sum_telescope c hn (fun t => |s.span| * (a ^ 2 * t + a * (b - a) * t ^ 2 + (b - a) ^ 2 * t ^ 3 / 3)), ← habs]
  ring

/-! ### C15 -/

/-- what the control surface contributes to a section -/
theorem section_flap (hg : mkGrid (built nm pos ops) c = .ok g) (k : ℕ) (s : Seg) (i : ℕ) (x : GridSec)
    (hx : SectionOf (built nm pos ops) g k s i x) :
    (¬ Covered s x → x.mixA = 0 ∧ x.mixE = 0 ∧ x.mixR = 0 ∧ x.mixF = 0 ∧ x.flapEff = 0 ∧ x.cmd = 0) ∧
    (Covered s x → (x.mixA, x.mixE, x.mixR, x.mixF) = s.cs.mixFor s.side ∧
      0 ≤ s.cs.chordFraction (rootStation s.side x.sp) ∧ s.cs.chordFraction (rootStation s.side x.sp) ≤ 1 ∧
      x.flapEff = etaH s.cs.sealed (s.cs.chordFraction (rootStation s.side x.sp)) *
        epsF (s.cs.chordFraction (rootStation s.side x.sp)) ∧
      x.cmd = cmD (s.cs.chordFraction (rootStation s.side x.sp))) := by
  obtain ⟨hi, l, r, _, _, _, hw, hcf, rfl⟩ := sectionOf_eq hg hx
  have hiff : Covered s (segSection c s l r i).withIc2 ↔ s.covers (sCp c s.n i) := (covers_iff s _).symm
  have hcf' : s.flapChord (sCp c s.n i) = s.cs.chordFraction (rootStation s.side (sCp c s.n i)) :=
    flapChord_root s _ hw
  constructor
  · intro h
    have h' := fun h' => h (hiff.2 h')
    exact ⟨if_neg h', if_neg h', if_neg h', if_neg h', if_neg h', if_neg h'⟩
  · intro h
    have h' := hiff.1 h
    have := hcf h'
    rw [hcf'] at this
    refine ⟨?_, this.1, this.2, ?_, ?_⟩
    · simp only [segSection, GridSec.withIc2, if_pos h']
    · simp only [segSection, GridSec.withIc2, if_pos h', hcf']
    · simp only [segSection, GridSec.withIc2, if_pos h', hcf']

/-- **C15, mirror.** Sections of a two-sided wing equally far from the root are both covered or both not, and have the
same effectiveness and flap moment. -/
theorem C15_mirror (hg : mkGrid (built nm pos ops) c = .ok g) (b kl kr : ℕ) (l r : Seg)
    (hb : (built nm pos ops).heap[b]? = some (.both l r)) (i : ℕ) (x y : GridSec)
    (hx : SectionOf (built nm pos ops) g kr r i x) (hy : SectionOf (built nm pos ops) g kl l (r.n - 1 - i) y) :
    (Covered l y ↔ Covered r x) ∧ y.flapEff = x.flapEff ∧ y.cmd = x.cmd := by
  have ht := ((built_inv nm pos ops).wing b _ hb).twin _ _ rfl
  have e : rootStation l.side y.sp = rootStation r.side x.sp := by
    obtain ⟨hi, l1, r1, _, _, _, _, _, rfl⟩ := sectionOf_eq hg hx
    obtain ⟨hj, l2, r2, _, _, _, _, _, rfl⟩ := sectionOf_eq hg hy
    show rootStation l.side (sCp c l.n (r.n - 1 - i)) = rootStation r.side (sCp c r.n i)
    rw [ht.n, sCp_flip c hi, ht.lside, ht.rside]
    simp [rootStation]
  have hiff : Covered l y ↔ Covered r x := by unfold Covered; rw [e, ht.cs]
  obtain ⟨hx1, hx2⟩ := section_flap hg kr r i x hx
  obtain ⟨hy1, hy2⟩ := section_flap hg kl l _ y hy
  refine ⟨hiff, ?_⟩
  by_cases h : Covered r x
  · obtain ⟨_, _, _, h1, h2⟩ := hx2 h
    obtain ⟨_, _, _, h3, h4⟩ := hy2 (hiff.2 h)
    rw [h1, h2, h3, h4, e, ht.cs]; exact ⟨rfl, rfl⟩
  · obtain ⟨_, _, _, _, h1, h2⟩ := hx1 h
    obtain ⟨_, _, _, _, h3, h4⟩ := hy1 (fun h' => h (hiff.1 h'))
    rw [h1, h2, h3, h4]; exact ⟨rfl, rfl⟩

/-- **C15, no chord.** A control surface without chord has no effectiveness anywhere. -/
theorem C15_no_chord (hg : mkGrid (built nm pos ops) c = .ok g) (k : ℕ) (s : Seg) (i : ℕ) (x : GridSec)
    (hx : SectionOf (built nm pos ops) g k s i x) (h0 : s.cs.chordRoot = 0) (h1 : s.cs.chordTip = 0) :
    x.flapEff = 0 ∧ x.cmd = 0 := by
  obtain ⟨hx1, hx2⟩ := section_flap hg k s i x hx
  by_cases h : Covered s x
  · obtain ⟨_, _, _, h3, h4⟩ := hx2 h
    have hz : s.cs.chordFraction (rootStation s.side x.sp) = 0 := by simp [CtrlSurf.chordFraction, h0, h1]
    rw [h3, h4, hz]
    constructor
    · unfold epsF
      simp [Real.arccos_neg_one, Real.pi_ne_zero]
    · unfold cmD
      simp [Real.arccos_neg_one]
  · exact ⟨(hx1 h).2.2.2.2.1, (hx1 h).2.2.2.2.2⟩

/-! ### C16 -/

private theorem consecutive_slices (segs : List Seg) : ∀ a, Consecutive a (slicesFrom a segs) (a + totN segs) := by
  induction segs with
  | nil => intro a; simpa [slicesFrom, totN] using Consecutive.nil a
  | cons s t ih =>
    intro a
    simp only [slicesFrom]
    have := ih (a + s.n)
    rw [show a + totN (s :: t) = a + s.n + totN t by simp [totN]; omega]
    exact .cons (by omega) this

private theorem consecutive_le {a z : ℕ} {l : List (ℕ × ℕ)} (h : Consecutive a l z) :
    a ≤ z ∧ ∀ ab ∈ l, a ≤ ab.1 := by
  induction h with
  | nil a => simp
  | cons hab _ ih =>
    refine ⟨hab.trans ih.1, ?_⟩
    intro x hx
    rcases List.mem_cons.1 hx with rfl | hx
    · exact le_rfl
    · exact hab.trans (ih.2 x hx)

private theorem consecutive_unique {a z : ℕ} {l : List (ℕ × ℕ)} (h : Consecutive a l z) :
    ∀ j, a ≤ j → j < z → ∃! k : ℕ, ∃ ab : ℕ × ℕ, l[k]? = some ab ∧ ab.1 ≤ j ∧ j < ab.2 := by
  induction h with
  | nil a => intro j h1 h2; omega
  | @cons a b z l hab hc ih =>
    intro j h1 h2
    rcases Nat.lt_or_ge j b with hj | hj
    · refine ⟨0, ⟨(a, b), rfl, h1, hj⟩, ?_⟩
      rintro k ⟨ab, hk, h3, h4⟩
      cases k with
      | zero => rfl
      | succ k =>
        simp at hk
        have := (consecutive_le hc).2 ab (List.mem_of_getElem? hk)
        omega
    · obtain ⟨k, ⟨ab, hk, h3, h4⟩, hu⟩ := ih j hj h2
      refine ⟨k + 1, ⟨ab, by simpa using hk, h3, h4⟩, ?_⟩
      rintro k' ⟨ab', hk', h3', h4'⟩
      cases k' with
      | zero => simp at hk'; subst hk'; simp at h4'; omega
      | succ k' =>
        simp at hk'
        rw [hu k' ⟨ab', hk', h3', h4'⟩]

private theorem concat_slices {α : Type*} {a z : ℕ} {l : List (ℕ × ℕ)} (h : Consecutive a l z) (data : List α) :
    (l.map fun ab => (data.take ab.2).drop ab.1).flatten = (data.take z).drop a := by
  induction h with
  | nil a => simp
  | @cons a b z l hab hc ih =>
    simp only [List.map_cons, List.flatten_cons, ih]
    have hbz := (consecutive_le hc).1
    apply List.ext_getElem?
    intro k
    rw [List.getElem?_append]
    simp only [List.length_drop, List.length_take, List.getElem?_drop, List.getElem?_take]
    split
    · rename_i hlt
      rw [if_pos (by omega), if_pos (by omega)]
    · rename_i hge
      rcases Nat.lt_or_ge data.length b with hb | hb
      · rw [List.getElem?_eq_none (by omega), List.getElem?_eq_none (by omega)]; simp
      · rw [min_eq_left hb] at hge ⊢
        rw [show b + (k - (b - a)) = a + k by omega]

/-- **C16.** The slices of the segments are consecutive from 0 to the number of sections, one per segment in
`get_wingsegments()` order and as long as the segment has sections; so every array index belongs to exactly one
segment, and the arrays are the concatenation of the per-segment data. -/
theorem C16_concatenation (hg : mkGrid (built nm pos ops) c = .ok g) :
    g.data.length = (built nm pos ops).numSections ∧
    Consecutive 0 g.slices g.data.length ∧
    List.Forall₂ (fun (s : Seg) ab => ab.2 = ab.1 + s.n) (built nm pos ops).segments g.slices ∧
    (∀ j < g.data.length, ∃! k : ℕ, ∃ ab : ℕ × ℕ, g.slices[k]? = some ab ∧ ab.1 ≤ j ∧ j < ab.2) ∧
    g.data = (g.slices.map g.slice).flatten ∧
    (∀ (k : ℕ) (s : Seg) (ab : ℕ × ℕ), (built nm pos ops).segments[k]? = some s → g.slices[k]? = some ab →
      ∃ v, segData (built nm pos ops) c s = .ok v ∧ g.slice ab = v.map GridSec.withIc2) := by
  obtain ⟨vs, hvs, h1, h2, h3⟩ := mkGrid_ok hg
  clear h3
  have hlen : vs.flatten.length = totN (built nm pos ops).segments := by
    generalize (built nm pos ops).segments = segs at hvs
    clear h1 h2
    induction hvs with
    | nil => simp [totN]
    | cons hv _ ih => simp only [totN, List.flatten_cons, List.length_append, segData_length hv, List.map_cons, List.sum_cons] at ih ⊢; rw [ih]
  have hdl : g.data.length = totN (built nm pos ops).segments := by rw [h1, List.length_map, hlen]
  have hcons : Consecutive 0 g.slices g.data.length := by
    rw [h2, hdl]
    simpa using consecutive_slices (built nm pos ops).segments 0
  refine ⟨by rw [hdl, numSections_eq], hcons, ?_, fun j hj => consecutive_unique hcons j (Nat.zero_le j) hj, ?_,
    fun k s ab hs hab => slice_eq hg hs hab⟩
  · rw [h2]
    generalize (built nm pos ops).segments = segs
    generalize 0 = a
    induction segs generalizing a with
    | nil => exact .nil
    | cons s t ih => exact .cons rfl (ih _)
  · have := concat_slices hcons g.data
    simp only [List.take_length, List.drop_zero] at this
    exact this.symm

/-! ### Non-vacuity -/

/-- The demonstration aircraft (swept wing with ailerons, winglets, fin) has a grid with a section covered by the right
aileron, and its mirror section on the left; the hypotheses of all theorems above hold for it. -/
example : ∃ g x y, mkGrid demo false = .ok g ∧ SectionOf demo g 1 (demoMain .right) 30 x ∧
    SectionOf demo g 0 (demoMain .left) (40 - 1 - 30) y ∧ Covered (demoMain .right) x ∧ demo.heap[0]? =
      some (.both (demoMain .left) (demoMain .right)) ∧ |(demoMain .right).sweep| < 90 ∧
    (∀ s ∈ demo.segments, s.isMain = true → |s.sweep| < 90 ∧ 0 < s.n) := by
  obtain ⟨g, hg⟩ := demo_grid false
  obtain ⟨x, hx⟩ := sectionOf_exists hg (k := 1) (s := demoMain .right) rfl (i := 30) (by simp [demoMain])
  obtain ⟨y, hy⟩ := sectionOf_exists hg (k := 0) (s := demoMain .left) rfl (i := 40 - 1 - 30) (by simp [demoMain])
  refine ⟨g, x, y, hg, hx, hy, ?_, rfl, ?_, ?_⟩
  · obtain ⟨hi, l, r, _, _, _, _, _, rfl⟩ := sectionOf_eq hg hx
    have e : rootStation Side.right (sCp false 40 30) = 0.7625 := by
      simp [rootStation, sCp, spacing, linSpacing]; norm_num
    show 0.5 < rootStation Side.right (sCp false 40 30) ∧ rootStation Side.right (sCp false 40 30) < 0.9
    rw [e]; norm_num
  · simp [demoMain]; norm_num [abs_of_pos]
  · intro s hs _
    rw [demo_segments] at hs
    simp at hs
    rcases hs with rfl | rfl | rfl | rfl | rfl <;> simp [demoMain, demoWinglet, demoFin] <;> norm_num [abs_of_pos]

end Verif
