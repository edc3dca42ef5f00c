import Verif.Lemmas.CutPiece
import Verif.Lemmas.GeometryPos
import Verif.Lemmas.PlaneOrder

/-! Helper lemmas: a segment and its two pieces have the same panels. -/

namespace Verif
open V3

/-- `ci` and `co` are the surface `c` measured along the inner and the outer piece -/
structure SurfCut (x : ℝ) (c ci co : CtrlSurf) : Prop where
  ci : ci = { c with spanRoot := (c.spanRoot - 0) / x, spanTip := (c.spanTip - 0) / x }
  co : co = { c with spanRoot := (c.spanRoot - x) / (1 - x), spanTip := (c.spanTip - x) / (1 - x) }

/-- `i` and `o` are the inner and outer piece of the segment `s`, cut at the fraction `x`; `N` is the wing object of `i` -/
structure CutSeg (N : ℕ) (x : ℝ) (s i o : Seg) : Prop where
  n : 0 < i.n ∧ 0 < o.n ∧ s.n = i.n + o.n ∧ x = (i.n : ℝ) / s.n
  side : i.side = s.side ∧ o.side = s.side
  main : i.isMain = s.isMain ∧ o.isMain = s.isMain
  parent : i.parent = s.parent ∧ o.parent = .wing N
  connect : i.connectAt = s.connectAt ∧ o.connectAt = s.side.str ++ "_" ++ "tip"
  low : ∀ j, s.parent = .wing j → j < N
  dpos : i.dpos = s.dpos ∧ o.dpos = 0
  yoffset : i.yoffset = s.yoffset ∧ o.yoffset = 0
  span : i.span = x * s.span ∧ o.span = (1 - x) * s.span
  rootChord : i.rootChord = s.rootChord ∧ o.rootChord = s.rootChord + x * (s.tipChord - s.rootChord)
  tipChord : i.tipChord = s.rootChord + x * (s.tipChord - s.rootChord) ∧ o.tipChord = s.tipChord
  sweep : i.sweep = s.sweep ∧ o.sweep = s.sweep
  dihedral : i.dihedral = s.dihedral ∧ o.dihedral = s.dihedral
  mount : i.mount = s.mount ∧ o.mount = s.mount - x * s.washout
  washout : i.washout = x * s.washout ∧ o.washout = (1 - x) * s.washout
  foil : s.tip = s.root ∧ i.root = s.root ∧ i.tip = s.root ∧ o.root = s.root ∧ o.tip = s.root
  surf : SurfCut x s.cs i.cs o.cs ∨ (s.cs = {} ∧ i.cs = {} ∧ o.cs = {})

variable {N : ℕ} {x : ℝ} {s i o : Seg}

theorem CutSeg.range (h : CutSeg N x s i o) : 0 < x ∧ 0 < 1 - x ∧ 1 - x = (o.n : ℝ) / s.n := by
  obtain ⟨h1, h2, h3, h4⟩ := h.n
  have hn : (0 : ℝ) < s.n := by rw [h3]; positivity
  have h5 : 1 - x = (o.n : ℝ) / s.n := by
    rw [h4, h3]; push_cast
    have : (i.n : ℝ) + o.n ≠ 0 := by positivity
    field_simp
    ring
  refine ⟨by rw [h4]; positivity, by rw [h5]; positivity, h5⟩

/-- the fraction at which a piece begins, from left to right -/
noncomputable def startOf (x : ℝ) : Side → Bool → ℝ
  | .right, true => 0
  | .right, false => x
  | .left, true => 1 - x
  | .left, false => 0

theorem CutSeg.inner (h : CutSeg N x s i o) : Piece (startOf x s.side true) x s i := by
  obtain ⟨h0, h1, _⟩ := h.range
  have hsd := h.side.1
  constructor
  · exact hsd
  · exact h.main.1
  · exact h.sweep.1
  · exact h.dihedral.1
  · rw [hsd, h.rootChord.1, h.tipChord.1]; cases s.side <;> simp [leftRight, startOf, lerp] <;> ring
  · rw [hsd, h.rootChord.1, h.tipChord.1]; cases s.side <;> simp [leftRight, startOf, lerp]
  · rw [hsd, h.mount.1, h.washout.1]; cases s.side <;> simp [leftRight, startOf, lerp]; ring
  · rw [hsd, h.mount.1, h.washout.1]; cases s.side <;> simp [leftRight, startOf, lerp]
  · exact h.foil.1
  · exact h.foil.2.1
  · exact h.foil.2.2.1
  · rcases h.surf with hc | hc
    · left
      constructor
      · unfold Seg.csSpan
        rw [hsd, hc.ci]
        cases s.side <;> simp only [startOf]
        field_simp; ring
      · unfold Seg.csSpan
        rw [hsd, hc.ci]
        cases s.side <;> simp only [startOf]
        field_simp; ring
      · unfold Seg.csChord
        rw [hsd, hc.ci]
      · rw [hc.ci]
      · rw [hsd, hc.ci]; rfl
    · exact .inr ⟨hc.1, hc.2.1⟩

theorem CutSeg.outer (h : CutSeg N x s i o) : Piece (startOf x s.side false) (1 - x) s o := by
  obtain ⟨h0, h1, _⟩ := h.range
  have hsd := h.side.2
  constructor
  · exact hsd
  · exact h.main.2
  · exact h.sweep.2
  · exact h.dihedral.2
  · rw [hsd, h.rootChord.2, h.tipChord.2]; cases s.side <;> simp [leftRight, startOf, lerp]
  · rw [hsd, h.rootChord.2, h.tipChord.2]; cases s.side <;> simp [leftRight, startOf, lerp]; ring
  · rw [hsd, h.mount.2, h.washout.2]; cases s.side <;> simp [leftRight, startOf, lerp]; ring
  · rw [hsd, h.mount.2, h.washout.2]; cases s.side <;> simp [leftRight, startOf, lerp] <;> ring
  · exact h.foil.1
  · exact h.foil.2.2.2.1
  · exact h.foil.2.2.2.2
  · rcases h.surf with hc | hc
    · left
      constructor
      · unfold Seg.csSpan
        rw [hsd, hc.co]
        cases s.side <;> simp only [startOf]
        field_simp; ring
      · unfold Seg.csSpan
        rw [hsd, hc.co]
        cases s.side <;> simp only [startOf]
        field_simp; ring
      · unfold Seg.csChord
        rw [hsd, hc.co]
      · rw [hc.co]
      · rw [hsd, hc.co]; rfl
    · exact .inr ⟨hc.1, hc.2.2⟩

/-- width of the control surface of a piece -/
theorem Piece.width {a b : ℝ} {s q : Seg} (h : Piece a b s q) (hb : 0 < b) :
    q.csSpan.2 - q.csSpan.1 = 0 ↔ s.csSpan.2 - s.csSpan.1 = 0 := by
  rcases h.surf with hs | ⟨hs, hq⟩
  · have : q.csSpan.2 - q.csSpan.1 = (s.csSpan.2 - s.csSpan.1) / b := by
      rw [hs.start, hs.stop]; field_simp; ring
    rw [this, div_eq_zero_iff]
    simp [hb.ne']
  · unfold Seg.csSpan
    rw [hs, hq]
    cases s.side <;> cases q.side <;> simp

/-- the flap chord test at a section of a piece -/
theorem Piece.flapOk {a b : ℝ} {s q : Seg} (h : Piece a b s q) (hb : 0 < b) (y : ℝ) :
    (q.covers y → 0 ≤ q.flapChord y ∧ q.flapChord y ≤ 1) ↔
      (s.covers (a + b * y) → 0 ≤ s.flapChord (a + b * y) ∧ s.flapChord (a + b * y) ≤ 1) := by
  rcases h.surf with hs | ⟨hs, hq⟩
  · rw [Piece.covers hs hb, Piece.flapChord hs hb]
  · simp [blank_flapChord hs, blank_flapChord hq]

/-- own tip of a segment, where other wings are connected -/
def Side.tip : Side → TipAt
  | .left => .leftTip
  | .right => .rightTip

/-- the tip positions of the pieces in terms of those of the whole -/
theorem CutSeg.offsets (h : CutSeg N x s i o) {l r b : V3} (hl : addOff (s.tipOffset .leftTip) b = .ok l)
    (hr : addOff (s.tipOffset .rightTip) b = .ok r) :
    ∃ m, addOff (i.tipOffset s.side.tip) b = .ok m ∧ addOff (o.tipOffset s.side.tip) m = .ok (if s.side = .left then l else r) ∧
      addOff (i.tipOffset .leftTip) b = .ok (l + startOf x s.side true • (r - l)) ∧
      addOff (i.tipOffset .rightTip) b = .ok (l + (startOf x s.side true + x) • (r - l)) ∧
      addOff (o.tipOffset .leftTip) m = .ok (l + startOf x s.side false • (r - l)) ∧
      addOff (o.tipOffset .rightTip) m = .ok (l + (startOf x s.side false + (1 - x)) • (r - l)) := by
  have hi := h.side.1
  have ho := h.side.2
  unfold Seg.tipOffset at hl hr ⊢
  simp only [hi, ho, h.dpos.1, h.dpos.2, h.yoffset.1, h.yoffset.2, h.span.1, h.span.2, h.sweep.1, h.sweep.2, h.dihedral.1,
    h.dihedral.2] at hl hr ⊢
  cases hsd : s.side with
  | left =>
    simp only [hsd, Side.tip] at hl hr ⊢
    by_cases hc : Real.cos (s.sweep * Real.pi / 180) = 0
    · rw [if_pos hc] at hl; simp [addOff] at hl
    · simp only [if_neg hc, addOff, Except.ok.injEq] at hl hr ⊢
      subst hl; subst hr
      refine ⟨_, rfl, ?_, ?_, ?_, ?_, ?_⟩ <;> ext <;> simp [startOf] <;> ring
  | right =>
    simp only [hsd, Side.tip] at hl hr ⊢
    by_cases hc : Real.cos (s.sweep * Real.pi / 180) = 0
    · rw [if_pos hc] at hr; simp [addOff] at hr
    · simp only [if_neg hc, addOff, Except.ok.injEq] at hl hr ⊢
      subst hl; subst hr
      refine ⟨_, rfl, ?_, ?_, ?_, ?_, ?_⟩ <;> ext <;> simp [startOf] <;> ring

/-- if the inner tips are defined, so are those of the whole -/
theorem CutSeg.offsets_back (h : CutSeg N x s i o) {li ri b : V3} (hl : addOff (i.tipOffset .leftTip) b = .ok li)
    (hr : addOff (i.tipOffset .rightTip) b = .ok ri) :
    ∃ l r, addOff (s.tipOffset .leftTip) b = .ok l ∧ addOff (s.tipOffset .rightTip) b = .ok r := by
  have hi := h.side.1
  unfold Seg.tipOffset at hl hr ⊢
  simp only [hi, h.sweep.1] at hl hr ⊢
  cases hsd : s.side with
  | left =>
    simp only [hsd] at hl hr ⊢
    by_cases hc : Real.cos (s.sweep * Real.pi / 180) = 0
    · rw [if_pos hc] at hl; simp [addOff] at hl
    · simp only [if_neg hc, addOff]
      exact ⟨_, _, rfl, rfl⟩
  | right =>
    simp only [hsd] at hl hr ⊢
    by_cases hc : Real.cos (s.sweep * Real.pi / 180) = 0
    · rw [if_pos hc] at hr; simp [addOff] at hr
    · simp only [if_neg hc, addOff]
      exact ⟨_, _, rfl, rfl⟩

/-- `addOff` after a position that may be an error -/
def offFrom (own : Option V3) : Except PyErr V3 → Except PyErr V3
  | .error e => .error e
  | .ok v => addOff own v

/-- position of the pieces relative to the same base -/
structure CutPos (p p' : Plane) (s i o : Seg) (base : Except PyErr V3) : Prop where
  whole : ∀ t, p.segPosition s t = offFrom (s.tipOffset t) base
  inner : ∀ t, p'.segPosition i t = offFrom (i.tipOffset t) base
  outer : ∀ t, p'.segPosition o t = offFrom (o.tipOffset t) (p'.segPosition i s.side.tip)

theorem CutPos.tip {p p' : Plane} {base : Except PyErr V3} (h : CutSeg N x s i o) (hp : CutPos p p' s i o base) :
    p'.segPosition o s.side.tip = p.segPosition s s.side.tip := by
  rw [hp.outer, hp.inner, hp.whole]
  cases base with
  | error e => rfl
  | ok b =>
    have hi := h.side.1
    have ho := h.side.2
    simp only [offFrom]
    unfold Seg.tipOffset
    simp only [hi, ho, h.dpos.1, h.dpos.2, h.yoffset.1, h.yoffset.2, h.span.1, h.span.2, h.sweep.1, h.sweep.2, h.dihedral.1,
      h.dihedral.2]
    cases hsd : s.side with
    | left =>
      simp only [Side.tip]
      by_cases hc : Real.cos (s.sweep * Real.pi / 180) = 0
      · simp only [if_pos hc, addOff]
      · simp only [if_neg hc, addOff, Except.ok.injEq]
        ext <;> simp <;> ring
    | right =>
      simp only [Side.tip]
      by_cases hc : Real.cos (s.sweep * Real.pi / 180) = 0
      · simp only [if_pos hc, addOff]
      · simp only [if_neg hc, addOff, Except.ok.injEq]
        ext <;> simp <;> ring

/-- the two parts, from left to right -/
def ordered {α : Type*} : Side → List α → List α → List α
  | .right, vi, vo => vi ++ vo
  | .left, vi, vo => vo ++ vi

theorem map_range_add {α : Type*} (f : ℕ → α) (a b : ℕ) :
    (List.range (a + b)).map f = (List.range a).map f ++ (List.range b).map fun i => f (a + i) := by
  rw [List.range_add, List.map_append, List.map_map]
  rfl

theorem forall2_map_range {α β γ : Type*} {P : α → β → Prop} (f : ℕ → γ) (g : ℕ → γ) (F : γ → α) (G : γ → β) (n : ℕ)
    (h : ∀ i < n, P (F (f i)) (G (g i))) :
    List.Forall₂ P (((List.range n).map f).map F) (((List.range n).map g).map G) := by
  rw [List.map_map, List.map_map, List.forall₂_map_left_iff, List.forall₂_map_right_iff, List.forall₂_same]
  intro i hi
  exact h i (List.mem_range.1 hi)

/-- **the pieces have the panels of the whole** -/
theorem CutSeg.data {p p' : Plane} {base : Except PyErr V3} (h : CutSeg N x s i o) (hp : CutPos p p' s i o base) :
    ((∃ v, segData p false s = .ok v) ↔ (∃ v, segData p' false i = .ok v) ∧ ∃ v, segData p' false o = .ok v) ∧
    ∀ v vi vo, segData p false s = .ok v → segData p' false i = .ok vi → segData p' false o = .ok vo →
      List.Forall₂ (fun a b : GridSec => SamePanel a.toSection b.toSection) (v.map GridSec.withIc2)
        ((ordered s.side vi vo).map GridSec.withIc2) := by
  obtain ⟨x0, x1, hox⟩ := h.range
  obtain ⟨n1, n2, n3, n4⟩ := h.n
  have hsn : 0 < s.n := by omega
  have hin := h.inner
  have hou := h.outer
  -- positions of the pieces from those of the whole
  have key : ∀ l r, p.segPosition s .leftTip = .ok l → p.segPosition s .rightTip = .ok r →
      p'.segPosition i .leftTip = .ok (l + startOf x s.side true • (r - l)) ∧
      p'.segPosition i .rightTip = .ok (l + (startOf x s.side true + x) • (r - l)) ∧
      p'.segPosition o .leftTip = .ok (l + startOf x s.side false • (r - l)) ∧
      p'.segPosition o .rightTip = .ok (l + (startOf x s.side false + (1 - x)) • (r - l)) := by
    intro l r hl hr
    rw [hp.whole] at hl hr
    cases hb : base with
    | error e => rw [hb] at hl; simp [offFrom] at hl
    | ok b =>
      rw [hb] at hl hr
      obtain ⟨m, h1, h2, h3, h4, h5, h6⟩ := h.offsets hl hr
      rw [hp.inner, hp.inner, hp.outer, hp.outer, hp.inner, hb]
      simp only [offFrom]
      rw [h1]
      exact ⟨h3, h4, h5, h6⟩
  have back : ∀ li ri, p'.segPosition i .leftTip = .ok li → p'.segPosition i .rightTip = .ok ri →
      ∃ l r, p.segPosition s .leftTip = .ok l ∧ p.segPosition s .rightTip = .ok r := by
    intro li ri hl hr
    rw [hp.inner] at hl hr
    cases hb : base with
    | error e => rw [hb] at hl; simp [offFrom] at hl
    | ok b =>
      rw [hb] at hl hr
      obtain ⟨l, r, h1, h2⟩ := h.offsets_back hl hr
      rw [hp.whole, hp.whole, hb]
      exact ⟨l, r, h1, h2⟩
  -- indices of the sections of the pieces
  have hji : ∃ ji : ℕ, startOf x s.side true = (ji : ℝ) / s.n ∧ (s.side = .right → ji = 0) ∧ (s.side = .left → ji = o.n) := by
    cases hsd : s.side with
    | left => exact ⟨o.n, by simp [startOf, hox], by simp, by simp⟩
    | right => exact ⟨0, by simp [startOf], by simp, by simp⟩
  have hjo : ∃ jo : ℕ, startOf x s.side false = (jo : ℝ) / s.n ∧ (s.side = .right → jo = i.n) ∧ (s.side = .left → jo = 0) := by
    cases hsd : s.side with
    | left => exact ⟨0, by simp [startOf], by simp, by simp⟩
    | right => exact ⟨i.n, by simp [startOf, n4], by simp, by simp⟩
  obtain ⟨ji, ji1, ji2, ji3⟩ := hji
  obtain ⟨jo, jo1, jo2, jo3⟩ := hjo
  have sti : ∀ m, sCp false s.n (ji + m) = startOf x s.side true + x * sCp false i.n m ∧
      sC1 false s.n (ji + m) = startOf x s.side true + x * sC1 false i.n m ∧
      sC2 false s.n (ji + m) = startOf x s.side true + x * sC2 false i.n m := by
    intro m
    rw [ji1, n4]
    exact stations_piece hsn n1 m
  have sto : ∀ m, sCp false s.n (jo + m) = startOf x s.side false + (1 - x) * sCp false o.n m ∧
      sC1 false s.n (jo + m) = startOf x s.side false + (1 - x) * sC1 false o.n m ∧
      sC2 false s.n (jo + m) = startOf x s.side false + (1 - x) * sC2 false o.n m := by
    intro m
    rw [jo1, hox]
    exact stations_piece hsn n2 m
  have hflap : (∀ m < s.n, s.covers (sCp false s.n m) → 0 ≤ s.flapChord (sCp false s.n m) ∧ s.flapChord (sCp false s.n m) ≤ 1) ↔
      (∀ m < i.n, i.covers (sCp false i.n m) → 0 ≤ i.flapChord (sCp false i.n m) ∧ i.flapChord (sCp false i.n m) ≤ 1) ∧
      (∀ m < o.n, o.covers (sCp false o.n m) → 0 ≤ o.flapChord (sCp false o.n m) ∧ o.flapChord (sCp false o.n m) ≤ 1) := by
    have e1 : ∀ m, (i.covers (sCp false i.n m) → 0 ≤ i.flapChord (sCp false i.n m) ∧ i.flapChord (sCp false i.n m) ≤ 1) ↔
        (s.covers (sCp false s.n (ji + m)) → 0 ≤ s.flapChord (sCp false s.n (ji + m)) ∧ s.flapChord (sCp false s.n (ji + m)) ≤ 1) := by
      intro m; rw [(sti m).1]; exact hin.flapOk x0 _
    have e2 : ∀ m, (o.covers (sCp false o.n m) → 0 ≤ o.flapChord (sCp false o.n m) ∧ o.flapChord (sCp false o.n m) ≤ 1) ↔
        (s.covers (sCp false s.n (jo + m)) → 0 ≤ s.flapChord (sCp false s.n (jo + m)) ∧ s.flapChord (sCp false s.n (jo + m)) ≤ 1) := by
      intro m; rw [(sto m).1]; exact hou.flapOk x1 _
    simp only [e1, e2]
    constructor
    · intro hh
      refine ⟨fun m hm => hh _ ?_, fun m hm => hh _ ?_⟩
      · cases hsd : s.side with
        | left => rw [ji3 hsd]; omega
        | right => rw [ji2 hsd]; omega
      · cases hsd : s.side with
        | left => rw [jo3 hsd]; omega
        | right => rw [jo2 hsd]; omega
    · rintro ⟨hh1, hh2⟩ m hm
      cases hsd : s.side with
      | left =>
        rw [ji3 hsd] at hh1
        rw [jo3 hsd] at hh2
        rcases Nat.lt_or_ge m o.n with hmo | hmo
        · have := hh2 m hmo; rwa [Nat.zero_add] at this
        · have := hh1 (m - o.n) (by omega); rwa [Nat.add_sub_cancel' hmo] at this
      | right =>
        rw [ji2 hsd] at hh1
        rw [jo2 hsd] at hh2
        rcases Nat.lt_or_ge m i.n with hmo | hmo
        · have := hh1 m hmo; rwa [Nat.zero_add] at this
        · have := hh2 (m - i.n) (by omega); rwa [Nat.add_sub_cancel' hmo] at this
  have nn : ∀ (l r : V3) (a b : ℝ), 0 < b → (nrm (l + (a + b) • (r - l) - (l + a • (r - l))) = 0 ↔ nrm (r - l) = 0) := by
    intro l r a b hb
    have : l + (a + b) • (r - l) - (l + a • (r - l)) = b • (r - l) := by ext <;> simp <;> ring
    rw [this, nrm_smul_pos hb, mul_eq_zero]
    simp [hb.ne']
  constructor
  · constructor
    · rintro ⟨v, hv⟩
      obtain ⟨l, r, hl, hr, hd, hw, _, hf, _⟩ := segData_ok hv
      obtain ⟨k1, k2, k3, k4⟩ := key l r hl hr
      obtain ⟨hf1, hf2⟩ := hflap.1 hf
      exact ⟨⟨_, segData_of k1 k2 (fun hc => hd ((nn l r _ _ x0).1 hc)) (fun hc => hw ((hin.width x0).1 hc)) (by simp) hf1⟩,
        ⟨_, segData_of k3 k4 (fun hc => hd ((nn l r _ _ x1).1 hc)) (fun hc => hw ((hou.width x1).1 hc)) (by simp) hf2⟩⟩
    · rintro ⟨⟨vi, hvi⟩, ⟨vo, hvo⟩⟩
      obtain ⟨li, ri, hli, hri, hdi, hwi, _, hfi, _⟩ := segData_ok hvi
      obtain ⟨lo, ro, hlo, hro, hdo, hwo, _, hfo, _⟩ := segData_ok hvo
      obtain ⟨l, r, hl, hr⟩ := back li ri hli hri
      obtain ⟨k1, k2, k3, k4⟩ := key l r hl hr
      have e1 := Except.ok.inj (hli.symm.trans k1)
      have e2 := Except.ok.inj (hri.symm.trans k2)
      rw [e1, e2] at hdi
      exact ⟨_, segData_of hl hr (fun hc => hdi ((nn l r _ _ x0).2 hc)) (fun hc => hwi ((hin.width x0).2 hc)) (by simp)
        (hflap.2 ⟨hfi, hfo⟩)⟩
  · intro v vi vo hv hvi hvo
    obtain ⟨l, r, hl, hr, hd, hw, _, hf, ev⟩ := segData_ok hv
    obtain ⟨li, ri, hli, hri, _, _, _, _, evi⟩ := segData_ok hvi
    obtain ⟨lo, ro, hlo, hro, _, _, _, _, evo⟩ := segData_ok hvo
    obtain ⟨k1, k2, k3, k4⟩ := key l r hl hr
    have e1 := Except.ok.inj (hli.symm.trans k1)
    have e2 := Except.ok.inj (hri.symm.trans k2)
    have e3 := Except.ok.inj (hlo.symm.trans k3)
    have e4 := Except.ok.inj (hro.symm.trans k4)
    subst ev evi evo
    have Pi : ∀ m, SamePanel (segSection false s l r (ji + m)).withIc2.toSection (segSection false i li ri m).withIc2.toSection :=
      fun m => hin.sectionEq x0 hd e1 e2 (sti m).1 (sti m).2.1 (sti m).2.2
    have Po : ∀ m, SamePanel (segSection false s l r (jo + m)).withIc2.toSection (segSection false o lo ro m).withIc2.toSection :=
      fun m => hou.sectionEq x1 hd e3 e4 (sto m).1 (sto m).2.1 (sto m).2.2
    cases hsd : s.side with
    | left =>
      rw [n3, Nat.add_comm, map_range_add, List.map_append]
      simp only [ordered, List.map_append]
      refine List.rel_append (forall2_map_range _ _ _ _ _ fun m _ => ?_) (forall2_map_range _ _ _ _ _ fun m _ => ?_)
      · have := Po m; rwa [jo3 hsd, Nat.zero_add] at this
      · have := Pi m; rwa [ji3 hsd] at this
    | right =>
      rw [n3, map_range_add, List.map_append]
      simp only [ordered, List.map_append]
      refine List.rel_append (forall2_map_range _ _ _ _ _ fun m _ => ?_) (forall2_map_range _ _ _ _ _ fun m _ => ?_)
      · have := Pi m; rwa [ji2 hsd, Nat.zero_add] at this
      · have := Po m; rwa [jo2 hsd] at this

end Verif
