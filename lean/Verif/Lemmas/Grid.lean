import Verif.Spec.Grid

/-! Helper lemmas: what a successfully built grid contains. -/

namespace Verif
open V3

theorem setSlice_ok {α : Type*} {a v r : List α} {i n : ℕ} (h : setSlice a i n v = .ok r) :
    i + n ≤ a.length ∧ v.length = n ∧ r = a.take i ++ v ++ a.drop (i + n) := by
  unfold setSlice at h
  split at h
  · rename_i hc
    exact ⟨hc.1, hc.2, (Except.ok.inj h).symm⟩
  · exact absurd h (by simp)

theorem segData_ok {p : Plane} {c : Bool} {s : Seg} {v : List GridSec} (h : segData p c s = .ok v) :
    ∃ l r, p.segPosition s .leftTip = .ok l ∧ p.segPosition s .rightTip = .ok r ∧ nrm (r - l) ≠ 0 ∧
      s.csSpan.2 - s.csSpan.1 ≠ 0 ∧ ¬ (c = true ∧ s.n = 0) ∧
      (∀ i < s.n, s.covers (sCp c s.n i) → 0 ≤ s.flapChord (sCp c s.n i) ∧ s.flapChord (sCp c s.n i) ≤ 1) ∧
      v = (List.range s.n).map (segSection c s l r) := by
  unfold segData at h
  split at h
  · exact absurd h (by simp)
  rename_i hn
  split at h
  · exact absurd h (by simp)
  rename_i l hl
  split at h
  · exact absurd h (by simp)
  rename_i r hr
  split at h
  · exact absurd h (by simp)
  rename_i hcs
  split at h
  · exact absurd h (by simp)
  rename_i hd
  split at h
  · exact absurd h (by simp)
  rename_i hf
  refine ⟨l, r, hl, hr, hd, hcs, hn, ?_, (Except.ok.inj h).symm⟩
  intro i hi hcov
  by_contra hcon
  exact hf ⟨i, hi, hcov, hcon⟩

theorem segData_of {p : Plane} {c : Bool} {s : Seg} {l r : V3} (hl : p.segPosition s .leftTip = .ok l)
    (hr : p.segPosition s .rightTip = .ok r) (hd : nrm (r - l) ≠ 0) (hcs : s.csSpan.2 - s.csSpan.1 ≠ 0)
    (hn : ¬ (c = true ∧ s.n = 0))
    (hf : ∀ i < s.n, s.covers (sCp c s.n i) → 0 ≤ s.flapChord (sCp c s.n i) ∧ s.flapChord (sCp c s.n i) ≤ 1) :
    segData p c s = .ok ((List.range s.n).map (segSection c s l r)) := by
  unfold segData
  rw [if_neg hn, hl, hr]
  simp only
  rw [if_neg hcs, if_neg hd, if_neg]
  rintro ⟨i, hi, hcov, hcon⟩
  exact hcon (hf i hi hcov)

theorem segData_length {p : Plane} {c : Bool} {s : Seg} {v : List GridSec} (h : segData p c s = .ok v) :
    v.length = s.n := by
  obtain ⟨l, r, _, _, _, _, _, _, rfl⟩ := segData_ok h
  simp

/-- total number of sections of a list of segments -/
def totN (segs : List Seg) : ℕ := (segs.map (·.n)).sum

/-- the slices of a list of segments starting at `a` -/
def slicesFrom (a : ℕ) : List Seg → List (ℕ × ℕ)
  | [] => []
  | s :: t => (a, a + s.n) :: slicesFrom (a + s.n) t

/-- reference area contribution of segment data -/
noncomputable def refOf : List Seg → List (List GridSec) → ℝ
  | s :: t, v :: vs => (if s.isMain then (v.map (·.area)).sum else 0) + refOf t vs
  | _, _ => 0

theorem gridFold_ok {p : Plane} {c : Bool} (segs : List Seg) :
    ∀ {st st' : GridState}, segs.foldlM (gridStep p c) st = .ok st' → st.index + totN segs = st.data.length →
      ∃ vs, List.Forall₂ (fun s v => segData p c s = .ok v) segs vs ∧
        st'.data = st.data.take st.index ++ vs.flatten ∧
        st'.slices = st.slices ++ slicesFrom st.index segs ∧
        st'.refArea = st.refArea + refOf segs vs := by
  induction segs with
  | nil =>
    intro st st' h hidx
    have : st = st' := by simpa [List.foldlM, pure, Except.pure] using h
    subst this
    refine ⟨[], .nil, ?_, ?_, ?_⟩
    · simp [totN] at hidx; simp [hidx]
    · simp [slicesFrom]
    · simp [refOf]
  | cons s t ih =>
    intro st st' h hidx
    rw [List.foldlM_cons] at h
    cases hst : gridStep p c st s with
    | error e => rw [hst] at h; exact absurd h (by simp [bind, Except.bind])
    | ok st1 =>
      rw [hst] at h
      simp only [bind, Except.bind] at h
      unfold gridStep at hst
      split at hst
      · exact absurd hst (by simp)
      rename_i v hv
      split at hst
      · exact absurd hst (by simp)
      rename_i data' hdata
      obtain ⟨hle, hlen, hd'⟩ := setSlice_ok hdata
      have hst1 := (Except.ok.inj hst).symm
      have htot : totN (s :: t) = s.n + totN t := by simp [totN]
      have hidx1 : st1.index + totN t = st1.data.length := by
        rw [hst1]
        simp only [hd', List.length_append, List.length_take, List.length_drop, hlen]
        rw [htot] at hidx
        omega
      obtain ⟨vs, hvs, h1, h2, h3⟩ := ih h hidx1
      refine ⟨v :: vs, .cons hv hvs, ?_, ?_, ?_⟩
      · rw [h1, hst1]
        simp only [hd', List.flatten_cons]
        rw [← List.append_assoc]
        congr 1
        rw [List.take_append_of_le_length]
        · rw [List.take_of_length_le]
          simp only [List.length_append, List.length_take, hlen]; omega
        · simp only [List.length_append, List.length_take, hlen]; omega
      · rw [h2, hst1]
        simp [slicesFrom]
      · rw [h3, hst1]
        simp only [refOf]
        split <;> ring

theorem gridFold_of {p : Plane} {c : Bool} (segs : List Seg) :
    ∀ {st : GridState} {vs : List (List GridSec)}, List.Forall₂ (fun s v => segData p c s = .ok v) segs vs →
      st.index + totN segs = st.data.length → ∃ st', segs.foldlM (gridStep p c) st = .ok st' := by
  induction segs with
  | nil => intro st vs _ _; exact ⟨st, rfl⟩
  | cons s t ih =>
    intro st vs h hidx
    cases h with
    | cons hv ht =>
      rename_i v vs'
      have hlen := segData_length hv
      have htot : totN (s :: t) = s.n + totN t := by simp [totN]
      rw [htot] at hidx
      have hset : setSlice st.data st.index s.n v =
          .ok (st.data.take st.index ++ v ++ st.data.drop (st.index + s.n)) := by
        unfold setSlice
        rw [if_pos ⟨by omega, hlen⟩]
      obtain ⟨st', hst'⟩ := ih (st :=
        { index := st.index + s.n
          slices := st.slices ++ [(st.index, st.index + s.n)]
          data := st.data.take st.index ++ v ++ st.data.drop (st.index + s.n)
          refArea := if s.isMain then st.refArea + (v.map (·.area)).sum else st.refArea }) ht (by
            simp only [List.length_append, List.length_take, List.length_drop, hlen]
            omega)
      refine ⟨st', ?_⟩
      rw [List.foldlM_cons]
      unfold gridStep
      rw [hv]
      simp only [hset]
      exact hst'

theorem foldl_append_flatMap {α β : Type*} (f : α → List β) (l : List α) :
    ∀ acc, l.foldl (fun a w => a ++ f w) acc = acc ++ l.flatMap f := by
  induction l with
  | nil => intro acc; simp
  | cons x t ih => intro acc; simp [ih]

theorem foldl_add_sum {α : Type*} (f : α → ℕ) (l : List α) :
    ∀ acc, l.foldl (fun a w => a + f w) acc = acc + (l.map f).sum := by
  induction l with
  | nil => intro acc; simp
  | cons x t ih => intro acc; simp [ih]; ring

theorem segments_eq (p : Plane) : p.segments = p.wingList.flatMap Wing.segments := by
  unfold Plane.segments; rw [foldl_append_flatMap]; simp

theorem Wing.numSections_eq (w : Wing) : w.numSections = totN w.segments := by
  cases w <;> simp [Wing.numSections, Wing.segments, totN]

theorem numSections_eq (p : Plane) : p.numSections = totN p.segments := by
  unfold Plane.numSections
  rw [foldl_add_sum, segments_eq]
  simp only [zero_add]
  induction p.wingList with
  | nil => simp [totN]
  | cons w t ih => simp [ih, Wing.numSections_eq, totN]

/-- What a successfully built grid contains. -/
theorem mkGrid_ok {p : Plane} {c : Bool} {g : Grid} (h : mkGrid p c = .ok g) :
    ∃ vs, List.Forall₂ (fun s v => segData p c s = .ok v) p.segments vs ∧
      g.data = vs.flatten.map GridSec.withIc2 ∧ g.slices = slicesFrom 0 p.segments ∧
      g.refArea = refOf p.segments vs := by
  unfold mkGrid at h
  split at h
  · exact absurd h (by simp)
  rename_i st hst
  obtain ⟨vs, hvs, h1, h2, h3⟩ := gridFold_ok _ hst (by simp [numSections_eq])
  have hg := (Except.ok.inj h).symm
  refine ⟨vs, hvs, ?_, ?_, ?_⟩
  · rw [hg]; simp [h1]
  · rw [hg]; simp [h2]
  · rw [hg]; simp [h3]

/-- A grid is built whenever every segment can be processed. -/
theorem mkGrid_of {p : Plane} {c : Bool} (h : ∀ s ∈ p.segments, ∃ v, segData p c s = .ok v) :
    ∃ g, mkGrid p c = .ok g := by
  have hvs : ∃ vs, List.Forall₂ (fun s v => segData p c s = .ok v) p.segments vs := by
    generalize p.segments = segs at h
    induction segs with
    | nil => exact ⟨[], .nil⟩
    | cons s t ih =>
      obtain ⟨v, hv⟩ := h s (by simp)
      obtain ⟨vs, hvs⟩ := ih fun s hs => h s (by simp [hs])
      exact ⟨v :: vs, .cons hv hvs⟩
  obtain ⟨vs, hvs⟩ := hvs
  obtain ⟨st', hst'⟩ := gridFold_of (p := p) (c := c) p.segments
    (st := ⟨0, [], List.replicate p.numSections GridSec.blank, 0⟩) hvs (by simp [numSections_eq])
  unfold mkGrid
  rw [hst']
  exact ⟨_, rfl⟩

theorem slicesFrom_length (segs : List Seg) : ∀ a, (slicesFrom a segs).length = segs.length := by
  induction segs with
  | nil => intro a; rfl
  | cons s t ih => intro a; simp [slicesFrom, ih]

/-- slice, segment and data of segment number `k` belong together -/
theorem slices_get {p : Plane} {c : Bool} (segs : List Seg) :
    ∀ {vs : List (List GridSec)} {a k : ℕ} {s : Seg} {ab : ℕ × ℕ},
      List.Forall₂ (fun s v => segData p c s = .ok v) segs vs → segs[k]? = some s →
      (slicesFrom a segs)[k]? = some ab →
      ∃ v, segData p c s = .ok v ∧ a ≤ ab.1 ∧ ab.2 = ab.1 + s.n ∧
        ∀ i < s.n, (vs.flatten)[ab.1 - a + i]? = v[i]? := by
  induction segs with
  | nil => intro vs a k s ab _ h; simp at h
  | cons s0 t ih =>
    intro vs a k s ab hvs hs hab
    cases hvs with
    | cons hv ht =>
      rename_i v vs'
      have hlen := segData_length hv
      cases k with
      | zero =>
        simp only [List.getElem?_cons_zero, Option.some.injEq] at hs
        simp only [slicesFrom, List.getElem?_cons_zero, Option.some.injEq] at hab
        subst hs; subst hab
        refine ⟨v, hv, le_refl _, rfl, fun i hi => ?_⟩
        simp only [Nat.sub_self, zero_add, List.flatten_cons]
        rw [List.getElem?_append_left (by omega)]
      | succ k =>
        simp only [List.getElem?_cons_succ] at hs
        simp only [slicesFrom, List.getElem?_cons_succ] at hab
        obtain ⟨v', hv', hle, hw, hget⟩ := ih ht hs hab
        refine ⟨v', hv', by omega, hw, fun i hi => ?_⟩
        rw [List.flatten_cons, List.getElem?_append_right (by omega), ← hget i hi]
        congr 1
        omega

theorem withIc2_len (x : GridSec) : x.withIc2.toSection.r1 = x.r1 := rfl

/-- The record reported for section `i` of a segment. -/
theorem sectionOf_eq {p : Plane} {c : Bool} {g : Grid} (h : mkGrid p c = .ok g) {k : ℕ} {s : Seg} {i : ℕ} {x : GridSec}
    (hx : SectionOf p g k s i x) :
    i < s.n ∧ ∃ l r, p.segPosition s .leftTip = .ok l ∧ p.segPosition s .rightTip = .ok r ∧ nrm (r - l) ≠ 0 ∧
      s.csSpan.2 - s.csSpan.1 ≠ 0 ∧
      (s.covers (sCp c s.n i) → 0 ≤ s.flapChord (sCp c s.n i) ∧ s.flapChord (sCp c s.n i) ≤ 1) ∧
      x = (segSection c s l r i).withIc2 := by
  obtain ⟨hs, a, b, hab, hi, hget⟩ := hx
  obtain ⟨vs, hvs, h1, h2, _⟩ := mkGrid_ok h
  rw [h2] at hab
  obtain ⟨v, hv, _, hw, hg⟩ := slices_get _ hvs hs hab
  have hin : i < s.n := by simp only at hw; omega
  refine ⟨hin, ?_⟩
  obtain ⟨l, r, hl, hr, hd, hcs, _, hf, rfl⟩ := segData_ok hv
  refine ⟨l, r, hl, hr, hd, hcs, hf i hin, ?_⟩
  rw [h1, List.getElem?_map] at hget
  have := hg i hin
  simp only [Nat.sub_zero] at this
  rw [this] at hget
  simp [hin] at hget
  exact hget.symm

/-- Every segment has all its sections in the grid. -/
theorem sectionOf_exists {p : Plane} {c : Bool} {g : Grid} (h : mkGrid p c = .ok g) {k : ℕ} {s : Seg}
    (hs : p.segments[k]? = some s) {i : ℕ} (hi : i < s.n) : ∃ x, SectionOf p g k s i x := by
  obtain ⟨vs, hvs, h1, h2, _⟩ := mkGrid_ok h
  have hk : k < p.segments.length := by
    by_contra hcon
    rw [List.getElem?_eq_none (by omega)] at hs
    simp at hs
  have hk' : k < (slicesFrom 0 p.segments).length := by rw [slicesFrom_length]; exact hk
  obtain ⟨ab, hab⟩ : ∃ ab, (slicesFrom 0 p.segments)[k]? = some ab := ⟨_, List.getElem?_eq_getElem hk'⟩
  obtain ⟨v, hv, _, hw, hg⟩ := slices_get _ hvs hs hab
  have hlen := segData_length hv
  have hgi := hg i hi
  rw [List.getElem?_eq_getElem (l := v) (by omega)] at hgi
  refine ⟨v[i].withIc2, hs, ab.1, ab.2, by rw [h2]; exact hab, by omega, ?_⟩
  rw [h1, List.getElem?_map]
  simp only [Nat.sub_zero] at hgi
  rw [hgi]
  rfl

/-- The slice of a segment contains its data. -/
theorem slice_eq {p : Plane} {c : Bool} {g : Grid} (h : mkGrid p c = .ok g) {k : ℕ} {s : Seg} {ab : ℕ × ℕ}
    (hs : p.segments[k]? = some s) (hab : g.slices[k]? = some ab) :
    ∃ v, segData p c s = .ok v ∧ g.slice ab = v.map GridSec.withIc2 := by
  obtain ⟨vs, hvs, h1, h2, _⟩ := mkGrid_ok h
  rw [h2] at hab
  obtain ⟨v, hv, _, hw, hg⟩ := slices_get _ hvs hs hab
  refine ⟨v, hv, ?_⟩
  have hlen := segData_length hv
  apply List.ext_getElem?
  intro i
  simp only [Grid.slice, List.getElem?_drop, h1, List.getElem?_take, List.getElem?_map]
  by_cases hi : i < s.n
  · have := hg i hi
    simp only [Nat.sub_zero] at this
    rw [if_pos (by omega), this]
  · rw [if_neg (by omega), List.getElem?_eq_none (l := v) (by omega)]
    rfl

end Verif
