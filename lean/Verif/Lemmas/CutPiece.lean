import Verif.Lemmas.CutSection
import Verif.Lemmas.Stations

/-! Helper lemmas: the sections of a piece of a wing segment are sections of the segment. -/

namespace Verif
open V3

/-- `q` has the control surface of `s`, measured from the fraction `a` with unit `b` -/
structure SurfPiece (a b : ℝ) (s q : Seg) : Prop where
  start : q.csSpan.1 = (s.csSpan.1 - a) / b
  stop : q.csSpan.2 = (s.csSpan.2 - a) / b
  chord : q.csChord = s.csChord
  sealed : q.cs.sealed = s.cs.sealed
  mix : q.cs.mixFor q.side = s.cs.mixFor s.side

/-- `q` is the part of the segment `s` from the fraction `a` to the fraction `a + b`, counted from left to right -/
structure Piece (a b : ℝ) (s q : Seg) : Prop where
  side : q.side = s.side
  main : q.isMain = s.isMain
  sweep : q.sweep = s.sweep
  dihedral : q.dihedral = s.dihedral
  chord1 : (leftRight q.side q.rootChord q.tipChord).1 =
    lerp a (leftRight s.side s.rootChord s.tipChord).1 (leftRight s.side s.rootChord s.tipChord).2
  chord2 : (leftRight q.side q.rootChord q.tipChord).2 =
    lerp (a + b) (leftRight s.side s.rootChord s.tipChord).1 (leftRight s.side s.rootChord s.tipChord).2
  twist1 : q.mount - (leftRight q.side 0 q.washout).1 =
    s.mount - lerp a (leftRight s.side 0 s.washout).1 (leftRight s.side 0 s.washout).2
  twist2 : q.mount - (leftRight q.side 0 q.washout).2 =
    s.mount - lerp (a + b) (leftRight s.side 0 s.washout).1 (leftRight s.side 0 s.washout).2
  tip : s.tip = s.root
  root' : q.root = s.root
  tip' : q.tip = s.root
  surf : SurfPiece a b s q ∨ (s.cs = {} ∧ q.cs = {})

theorem frame_twist (side : Side) (m w m' w' d : ℝ) (h : m - w = m' - w') : frame side m w d = frame side m' w' d := by
  unfold frame
  rw [h]

theorem leftRight_same {α : Type*} (side : Side) (a : α) : leftRight side a a = (a, a) := by cases side <;> rfl

theorem epsF_zero : epsF 0 = 0 := by
  unfold epsF
  simp [Real.pi_ne_zero]

theorem cmD_zero : cmD 0 = 0 := by
  unfold cmD
  simp

theorem Piece.covers {a b : ℝ} {s q : Seg} (h : SurfPiece a b s q) (hb : 0 < b) (x : ℝ) : q.covers x ↔ s.covers (a + b * x) := by
  unfold Seg.covers
  rw [h.start, h.stop, gt_iff_lt, gt_iff_lt, div_lt_iff₀ hb, lt_div_iff₀ hb]
  constructor <;> rintro ⟨h1, h2⟩ <;> constructor <;> linarith

theorem Piece.flapChord {a b : ℝ} {s q : Seg} (h : SurfPiece a b s q) (hb : 0 < b) (x : ℝ) :
    q.flapChord x = s.flapChord (a + b * x) := by
  unfold Seg.flapChord
  rw [h.start, h.stop, h.chord]
  have e : (s.csSpan.2 - a) / b - (s.csSpan.1 - a) / b = (s.csSpan.2 - s.csSpan.1) / b := by
    field_simp; ring
  rw [e]
  by_cases h0 : s.csSpan.2 - s.csSpan.1 = 0
  · simp [h0]
  · field_simp
    ring

theorem blank_flapChord {s : Seg} (h : s.cs = {}) (x : ℝ) : s.flapChord x = 0 := by
  have : s.csChord = (0, 0) := by
    unfold Seg.csChord
    rw [h]
    exact leftRight_same _ _
  unfold Seg.flapChord
  simp [this]

theorem blank_mix {s : Seg} (h : s.cs = {}) : s.cs.mixFor s.side = (0, 0, 0, 0) := by
  rw [h]; rfl

open Classical in
theorem ite_both {α : Type*} (P : Prop) (a : α) : (if P then a else a) = a := by split <;> rfl

theorem Piece.sectionEq {a b : ℝ} {s q : Seg} (h : Piece a b s q) (hb : 0 < b) {l r l' r' : V3} (hn : nrm (r - l) ≠ 0)
    (hl : l' = l + a • (r - l)) (hr : r' = l + (a + b) • (r - l)) {c : Bool} {m i : ℕ}
    (h0 : sCp c s.n m = a + b * sCp c q.n i) (h1 : sC1 c s.n m = a + b * sC1 c q.n i) (h2 : sC2 c s.n m = a + b * sC2 c q.n i) :
    SamePanel (segSection c s l r m).withIc2.toSection (segSection c q l' r' i).withIc2.toSection := by
  have hd : r' - l' = b • (r - l) := by
    rw [hl, hr]; ext <;> simp <;> ring
  have hn' : nrm (r' - l') ≠ 0 := by
    rw [hd, nrm_smul_pos hb]
    exact mul_ne_zero hb.ne' hn
  have hpt : ∀ x, segPoint l' r' x = segPoint l r (a + b * x) := by
    intro x
    rw [segPoint_eq hn', segPoint_eq hn, hd, hl]
    ext <;> simp <;> ring
  have hch : ∀ x, lerp x (leftRight q.side q.rootChord q.tipChord).1 (leftRight q.side q.rootChord q.tipChord).2 =
      lerp (a + b * x) (leftRight s.side s.rootChord s.tipChord).1 (leftRight s.side s.rootChord s.tipChord).2 := by
    intro x
    rw [h.chord1, h.chord2, lerp_lerp]
  have htw : ∀ x, q.mount - lerp x (leftRight q.side 0 q.washout).1 (leftRight q.side 0 q.washout).2 =
      s.mount - lerp (a + b * x) (leftRight s.side 0 s.washout).1 (leftRight s.side 0 s.washout).2 := by
    intro x
    have t1 := h.twist1
    have t2 := h.twist2
    simp only [lerp] at t1 t2 ⊢
    linear_combination (1 - x) * t1 + x * t2
  have hfr : ∀ x, frame q.side q.mount (lerp x (leftRight q.side 0 q.washout).1 (leftRight q.side 0 q.washout).2) q.dihedral =
      frame s.side s.mount (lerp (a + b * x) (leftRight s.side 0 s.washout).1 (leftRight s.side 0 s.washout).2) s.dihedral := by
    intro x
    rw [h.side, h.dihedral]
    apply frame_twist
    rw [← h.side]
    have := htw x
    rw [h.side] at this ⊢
    exact this
  have haf : leftRight q.side q.root q.tip = (s.root, s.root) := by rw [h.root', h.tip', leftRight_same]
  have haf' : leftRight s.side s.root s.tip = (s.root, s.root) := by rw [h.tip, leftRight_same]
  have hflap : (segSection c q l' r' i).flapEff = (segSection c s l r m).flapEff ∧
      (segSection c q l' r' i).cmd = (segSection c s l r m).cmd ∧ (segSection c q l' r' i).mixA = (segSection c s l r m).mixA ∧
      (segSection c q l' r' i).mixE = (segSection c s l r m).mixE ∧ (segSection c q l' r' i).mixR = (segSection c s l r m).mixR ∧
      (segSection c q l' r' i).mixF = (segSection c s l r m).mixF := by
    unfold segSection
    dsimp only
    rcases h.surf with hs | ⟨hs, hq⟩
    · have hc := Piece.covers hs hb (sCp c q.n i)
      rw [← h0] at hc
      have hf := Piece.flapChord hs hb (sCp c q.n i)
      rw [← h0] at hf
      by_cases hx : s.covers (sCp c s.n m)
      · simp only [if_pos hx, if_pos (hc.2 hx), hf, hs.sealed, hs.mix, and_self]
      · simp only [if_neg hx, if_neg (fun h => hx (hc.1 h)), and_self]
    · simp only [blank_flapChord hs, blank_flapChord hq, epsF_zero, cmD_zero, mul_zero, blank_mix hs, blank_mix hq, ite_both, and_self]
  obtain ⟨f1, f2, f3, f4, f5, f6⟩ := hflap
  have e1 : (segSection c q l' r' i).r1 = (segSection c s l r m).r1 := by
    change segPoint l' r' (sC1 c q.n i) = segPoint l r (sC1 c s.n m)
    rw [hpt, h1]
  have e2 : (segSection c q l' r' i).r2 = (segSection c s l r m).r2 := by
    change segPoint l' r' (sC2 c q.n i) = segPoint l r (sC2 c s.n m)
    rw [hpt, h2]
  have e3 : (segSection c q l' r' i).c1 = (segSection c s l r m).c1 := by
    change lerp (sC1 c q.n i) _ _ = lerp (sC1 c s.n m) _ _
    rw [hch, h1]
  have e4 : (segSection c q l' r' i).c2 = (segSection c s l r m).c2 := by
    change lerp (sC2 c q.n i) _ _ = lerp (sC2 c s.n m) _ _
    rw [hch, h2]
  have e5 : (segSection c q l' r' i).ua = (segSection c s l r m).ua := by
    change (frame q.side q.mount (lerp (sCp c q.n i) _ _) q.dihedral).1 = (frame s.side s.mount (lerp (sCp c s.n m) _ _) s.dihedral).1
    rw [hfr, h0]
  have e6 : (segSection c q l' r' i).un = (segSection c s l r m).un := by
    change (frame q.side q.mount (lerp (sCp c q.n i) _ _) q.dihedral).2 = (frame s.side s.mount (lerp (sCp c s.n m) _ _) s.dihedral).2
    rw [hfr, h0]
  have e7 : (segSection c q l' r' i).us = (segSection c s l r m).us := by
    change cross (segSection c q l' r' i).ua (segSection c q l' r' i).un = cross (segSection c s l r m).ua (segSection c s l r m).un
    rw [e5, e6]
  exact
    { rcp := by
        change segPoint l' r' (sCp c q.n i) = segPoint l r (sCp c s.n m)
        rw [hpt, h0]
      r1 := e1
      r2 := e2
      chord := by
        change lerp (sCp c q.n i) _ _ = lerp (sCp c s.n m) _ _
        rw [hch, h0]
      twist := by
        change q.mount - lerp (sCp c q.n i) _ _ = s.mount - lerp (sCp c s.n m) _ _
        rw [htw, h0]
      dihedral := h.dihedral
      sweep := h.sweep
      area := by
        change Real.cos (q.sweep * Real.pi / 180) * nrm ((segSection c q l' r' i).r2 - (segSection c q l' r' i).r1) *
            ((segSection c q l' r' i).c1 + (segSection c q l' r' i).c2) / 2 =
          Real.cos (s.sweep * Real.pi / 180) * nrm ((segSection c s l r m).r2 - (segSection c s l r m).r1) *
            ((segSection c s l r m).c1 + (segSection c s l r m).c2) / 2
        rw [e1, e2, e3, e4, h.sweep]
      cla := by
        change lerp _ (leftRight q.side q.root q.tip).1.cla (leftRight q.side q.root q.tip).2.cla =
          lerp _ (leftRight s.side s.root s.tip).1.cla (leftRight s.side s.root s.tip).2.cla
        rw [haf, haf', lerp_self, lerp_self]
      al0 := by
        change lerp _ (leftRight q.side q.root q.tip).1.al0 (leftRight q.side q.root q.tip).2.al0 =
          lerp _ (leftRight s.side s.root s.tip).1.al0 (leftRight s.side s.root s.tip).2.al0
        rw [haf, haf', lerp_self, lerp_self]
      clMax := by
        change lerp _ (leftRight q.side q.root q.tip).1.clMax (leftRight q.side q.root q.tip).2.clMax =
          lerp _ (leftRight s.side s.root s.tip).1.clMax (leftRight s.side s.root s.tip).2.clMax
        rw [haf, haf', lerp_self, lerp_self]
      left := by
        change (leftRight q.side q.root q.tip).1.coef = (leftRight s.side s.root s.tip).1.coef
        rw [haf, haf']
      right := by
        change (leftRight q.side q.root q.tip).2.coef = (leftRight s.side s.root s.tip).2.coef
        rw [haf, haf']
      station := .inr (by
        change (leftRight s.side s.root s.tip).1.coef = (leftRight s.side s.root s.tip).2.coef
        rw [haf'])
      ua := e5
      un := e6
      us := e7
      flapEff := f1
      cmd := f2
      ic2 := by
        change |dot (segSection c q l' r' i).us ((segSection c q l' r' i).r2 - (segSection c q l' r' i).r1)| *
            ((segSection c q l' r' i).c2 * (segSection c q l' r' i).c2 + (segSection c q l' r' i).c1 * (segSection c q l' r' i).c2 +
              (segSection c q l' r' i).c1 * (segSection c q l' r' i).c1) / 3 =
          |dot (segSection c s l r m).us ((segSection c s l r m).r2 - (segSection c s l r m).r1)| *
            ((segSection c s l r m).c2 * (segSection c s l r m).c2 + (segSection c s l r m).c1 * (segSection c s l r m).c2 +
              (segSection c s l r m).c1 * (segSection c s l r m).c1) / 3
        rw [e1, e2, e3, e4, e7]
      mixA := f3
      mixE := f4
      mixR := f5
      mixF := f6 }

theorem linSpacing_piece {n k j : ℕ} (hn : 0 < n) (hk : 0 < k) (o : ℝ) (i : ℕ) :
    linSpacing n o (j + i) = (j : ℝ) / n + (k : ℝ) / n * linSpacing k o i := by
  have : (n : ℝ) ≠ 0 := by positivity
  have : (k : ℝ) ≠ 0 := by positivity
  unfold linSpacing
  push_cast
  field_simp
  ring

/-- the stations of a piece with evenly spaced sections -/
theorem stations_piece {n k j : ℕ} (hn : 0 < n) (hk : 0 < k) (i : ℕ) :
    sCp false n (j + i) = (j : ℝ) / n + (k : ℝ) / n * sCp false k i ∧
    sC1 false n (j + i) = (j : ℝ) / n + (k : ℝ) / n * sC1 false k i ∧
    sC2 false n (j + i) = (j : ℝ) / n + (k : ℝ) / n * sC2 false k i :=
  ⟨linSpacing_piece hn hk _ (i + 1), linSpacing_piece hn hk _ i, linSpacing_piece hn hk _ (i + 1)⟩

end Verif
