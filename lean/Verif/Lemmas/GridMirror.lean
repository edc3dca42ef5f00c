import Verif.Thm.GeometryPos
import Verif.Thm.Grid
import Verif.Lemmas.LLInputs

/-!
# Lemmas: the grid of a symmetric plane is its own mirror image
-/

namespace Verif
open V3

/-- `y` is the mirror image of `x`; symmetric controls act on both alike, aileron and rudder in opposite directions -/
structure MirRel (x y : GridSec) : Prop where
  image : SecImage mirSim x.toSection y.toSection
  mixE : y.mixE = x.mixE
  mixF : y.mixF = x.mixF
  mixA : y.mixA = -x.mixA
  mixR : y.mixR = -x.mixR
  clMax : y.clMax = x.clMax

theorem MirRel.symm {x y : GridSec} (h : MirRel x y) : MirRel y x := by
  have hi := h.image
  refine ⟨?_, h.mixE.symm, h.mixF.symm, by rw [h.mixA, neg_neg], by rw [h.mixR, neg_neg], h.clMax.symm⟩
  have hf : mirSim.flip = true := rfl
  have h1 := hi.rcp; have h2 := hi.r1; have h3 := hi.r2; have h4 := hi.sp; have h5 := hi.left; have h6 := hi.right
  have h7 := hi.area; have h8 := hi.cla; have h9 := hi.ua; have h10 := hi.un; have h11 := hi.us; have h12 := hi.ic2
  have h13 := hi.flapEff; have h14 := hi.cmd
  simp only [mirSim_pt, hf, if_true, mirSim_len, mirSim_Q, mirSim_sgn] at h1 h2 h3 h4 h5 h6 h7 h9 h10 h11 h12
  constructor
  · rw [h1, mirSim_pt, mir_mir]
  · rw [hf, if_pos rfl, h3, mirSim_pt, mir_mir]
  · rw [hf, if_pos rfl, h2, mirSim_pt, mir_mir]
  · rw [hf, if_pos rfl, h4]; ring
  · rw [hf, if_pos rfl, h6]
  · rw [hf, if_pos rfl, h5]
  · rw [h7, mirSim_len]; ring
  · rw [h8]
  · rw [h9, mirSim_Q, mir_mir]
  · rw [h10, mirSim_Q, mir_mir]
  · rw [h11, mirSim_Q, mirSim_sgn]; ext <;> simp
  · rw [h13]
  · rw [h14]
  · rw [h12, mirSim_len]; ring

theorem segPoint_mir {L R : V3} (h : nrm (R - L) ≠ 0) (t : ℝ) :
    segPoint (mir R) (mir L) (1 - t) = mir (segPoint L R t) := by
  have h' : nrm (mir L - mir R) ≠ 0 := by
    rw [← mir_sub, nrm_mir, ← nrm_neg, neg_sub]; exact h
  rw [segPoint_eq h, segPoint_eq h']
  ext <;> simp <;> ring

open scoped Classical in
/-- left section `n-1-i` against right section `i` -/
theorem segSection_mir {l r : Seg} (ht : Twin l r) {L R : V3} (hd : nrm (R - L) ≠ 0) (hw : r.csSpan.2 - r.csSpan.1 ≠ 0)
    (c : Bool) {i : ℕ} (hi : i < r.n) :
    MirRel (segSection c r L R i).withIc2 (segSection c l (mir R) (mir L) (r.n - 1 - i)).withIc2 := by
  have hsp : sCp c l.n (r.n - 1 - i) = 1 - sCp c r.n i := by rw [ht.n, sCp_flip c hi]
  have hs1 : sC1 c l.n (r.n - 1 - i) = 1 - sC2 c r.n i := by rw [ht.n, sC1_flip c hi]
  have hs2 : sC2 c l.n (r.n - 1 - i) = 1 - sC1 c r.n i := by rw [ht.n, sC2_flip c hi]
  have hf : mirSim.flip = true := rfl
  have hlr : ∀ {α : Type} (a b : α), leftRight l.side a b = (leftRight r.side b a) := by
    intro α a b; rw [ht.lside, ht.rside]; rfl
  have hlr' : ∀ {α : Type} (a b : α), leftRight r.side a b = (a, b) := by intro α a b; rw [ht.rside]; rfl
  have hfr := frame_mirror r.mount (lerp (sCp c r.n i) 0 r.washout) r.dihedral
  have hfrl : frame l.side l.mount (lerp (1 - sCp c r.n i) r.washout 0) l.dihedral =
      (mir (frame r.side r.mount (lerp (sCp c r.n i) 0 r.washout) r.dihedral).1,
       mir (frame r.side r.mount (lerp (sCp c r.n i) 0 r.washout) r.dihedral).2) := by
    rw [lerp_flip, ht.lside, ht.rside, ht.mount, ht.dihedral]
    exact Prod.ext hfr.1 hfr.2
  have hcov : l.covers (1 - sCp c r.n i) ↔ r.covers (sCp c r.n i) := by
    rw [covers_iff, covers_iff, ht.lside, ht.rside, ht.cs]
    simp [rootStation]
  have hcov' : l.covers (sCp c l.n (r.n - 1 - i)) ↔ r.covers (sCp c r.n i) := by rw [hsp]; exact hcov
  have hwl : l.csSpan.2 - l.csSpan.1 ≠ 0 := by
    unfold Seg.csSpan at hw ⊢
    rw [ht.rside] at hw
    rw [ht.lside, ht.cs]
    simp only at hw ⊢
    intro h; apply hw; linarith
  have hfc : l.flapChord (1 - sCp c r.n i) = r.flapChord (sCp c r.n i) := by
    rw [flapChord_root _ _ hw, flapChord_root _ _ hwl, ht.lside, ht.rside, ht.cs]
    simp [rootStation]
  have hn1 : ∀ a b, nrm (segPoint (mir R) (mir L) (1 - a) - segPoint (mir R) (mir L) (1 - b)) =
      nrm (segPoint L R b - segPoint L R a) := by
    intro a b
    rw [segPoint_mir hd, segPoint_mir hd, ← mir_sub, nrm_mir, ← nrm_neg, neg_sub]
  have husl : cross (frame l.side l.mount (lerp (1 - sCp c r.n i) r.washout 0) l.dihedral).1
      (frame l.side l.mount (lerp (1 - sCp c r.n i) r.washout 0) l.dihedral).2 =
      -mir (cross (frame r.side r.mount (lerp (sCp c r.n i) 0 r.washout) r.dihedral).1
        (frame r.side r.mount (lerp (sCp c r.n i) 0 r.washout) r.dihedral).2) := by
    rw [hfrl]; ext <;> simp <;> ring
  refine ⟨?_, ?_, ?_, ?_, ?_, by
    simp only [segSection, GridSec.withIc2, hsp, hlr, hlr', lerp_flip, ht.root, ht.tip]⟩
  · constructor <;>
      simp only [segSection, GridSec.withIc2, hsp, hs1, hs2, hlr, hlr', hf, if_true, mirSim_pt, mirSim_len, mirSim_Q,
        mirSim_sgn, one_pow, one_mul, lerp_flip, ht.rootChord, ht.tipChord, ht.root, ht.tip, ht.washout]
    · exact segPoint_mir hd _
    · exact segPoint_mir hd _
    · exact segPoint_mir hd _
    · rw [hn1, ht.sweep]; ring
    · have := congrArg Prod.fst hfrl
      simp only [lerp_flip] at this
      exact this
    · have := congrArg Prod.snd hfrl
      simp only [lerp_flip] at this
      exact this
    · have := husl
      simp only [lerp_flip] at this
      rw [this]; ext <;> simp
    · rw [hfc, ht.cs]; exact if_congr hcov rfl rfl
    · rw [hfc]; exact if_congr hcov rfl rfl
    · have := husl
      simp only [lerp_flip] at this
      rw [this, segPoint_mir hd, segPoint_mir hd, ← mir_sub]
      have e : ∀ a b : V3, dot (-mir a) (mir b) = dot a (-b) := by intro a b; simp [dot]
      rw [e, neg_sub]; ring
  · simp only [segSection, GridSec.withIc2, CtrlSurf.mixFor, ht.cs]
    exact if_congr hcov' rfl rfl
  · simp only [segSection, GridSec.withIc2, CtrlSurf.mixFor, ht.cs]
    exact if_congr hcov' rfl rfl
  all_goals
    simp only [segSection, GridSec.withIc2, CtrlSurf.mixFor, ht.cs, ht.lside, ht.rside]
    by_cases hh : r.covers (sCp c r.n i)
    · rw [if_pos (hcov'.2 hh), if_pos hh]
      first
      | (cases r.cs.aileron <;> simp; done)
      | (cases r.cs.rudder <;> simp)
    · rw [if_neg (fun h => hh (hcov'.1 h)), if_neg hh, neg_zero]

/-- a list of sections that is its own mirror image, under an involution of the indices -/
def SelfMirror (L : List GridSec) : Prop :=
  ∃ f : ℕ → ℕ, ∀ i < L.length, f i < L.length ∧ f (f i) = i ∧ ∃ x y, L[i]? = some x ∧ L[f i]? = some y ∧ MirRel x y

theorem SelfMirror.append {A B : List GridSec} (hA : SelfMirror A) (hB : SelfMirror B) : SelfMirror (A ++ B) := by
  obtain ⟨f, hf⟩ := hA
  obtain ⟨k, hk⟩ := hB
  refine ⟨fun i => if i < A.length then f i else A.length + k (i - A.length), ?_⟩
  intro i hi
  rw [List.length_append] at hi ⊢
  by_cases h : i < A.length
  · obtain ⟨h1, h2, x, y, hx, hy, hr⟩ := hf i h
    simp only [if_pos h, if_pos h1]
    refine ⟨by omega, h2, x, y, ?_, ?_, hr⟩
    · rw [List.getElem?_append_left h]; exact hx
    · rw [List.getElem?_append_left h1]; exact hy
  · obtain ⟨h1, h2, x, y, hx, hy, hr⟩ := hk (i - A.length) (by omega)
    simp only [if_neg h, if_neg (by omega : ¬ A.length + k (i - A.length) < A.length), Nat.add_sub_cancel_left, h2]
    refine ⟨by omega, by omega, x, y, ?_, ?_, hr⟩
    · rw [List.getElem?_append_right (by omega)]; exact hx
    · rw [List.getElem?_append_right (by omega), Nat.add_sub_cancel_left]; exact hy

theorem selfMirror_pair {n : ℕ} {a b : ℕ → GridSec} (h : ∀ i < n, MirRel (b i) (a (n - 1 - i))) :
    SelfMirror ((List.range n).map a ++ (List.range n).map b) := by
  refine ⟨fun i => 2 * n - 1 - i, ?_⟩
  intro i hi
  simp only [List.length_append, List.length_map, List.length_range] at hi ⊢
  refine ⟨by omega, by omega, ?_⟩
  by_cases hin : i < n
  · refine ⟨a i, b (n - 1 - i), ?_, ?_, ?_⟩
    · rw [List.getElem?_append_left (by simpa using hin)]
      simp [hin]
    · rw [List.getElem?_append_right (by simp; omega)]
      simp only [List.length_map, List.length_range, List.getElem?_map]
      rw [show 2 * n - 1 - i - n = n - 1 - i by omega, List.getElem?_range (by omega)]
      rfl
    · have := (h (n - 1 - i) (by omega)).symm
      rwa [show n - 1 - (n - 1 - i) = i by omega] at this
  · refine ⟨b (i - n), a (n - 1 - (i - n)), ?_, ?_, ?_⟩
    · rw [List.getElem?_append_right (by simp; omega)]
      simp only [List.length_map, List.length_range, List.getElem?_map]
      rw [List.getElem?_range (by omega)]
      rfl
    · rw [List.getElem?_append_left (by simp; omega)]
      rw [List.getElem?_map, List.getElem?_range (by omega), show 2 * n - 1 - i = n - 1 - (i - n) by omega]
      rfl
    · exact h (i - n) (by omega)

/-- every wing of the plane is two-sided, centred, and attached through such wings -/
structure SymmetricPlane (p : Plane) : Prop where
  centred : p.getPosition.y = 0
  wings : ∀ kv ∈ p.wings, SymmetricChain p kv.2

theorem selfMirror_wings {p : Plane} (hp : PlaneInv p) (hpl : p.getPosition.y = 0) (c : Bool) (ids : List ℕ) :
    (∀ id ∈ ids, SymmetricChain p id) → ∀ vs,
    List.Forall₂ (fun s v => segData p c s = .ok v) ((ids.filterMap (p.heap[·]?)).flatMap Wing.segments) vs →
    SelfMirror (vs.flatten.map GridSec.withIc2) := by
  induction ids with
  | nil => intro _ vs h; simp at h; subst h; exact ⟨id, by simp⟩
  | cons id t ih =>
    intro hsym vs h
    obtain ⟨l, r, hb, hdy⟩ := hsym id (by simp) id .refl
    rw [List.filterMap_cons_some hb] at h
    simp only [List.flatMap_cons, Wing.segments, List.cons_append, List.nil_append] at h
    cases h with
    | cons hl h =>
      cases h with
      | cons hr h =>
        rename_i vs'
        have ht := (hp.wing id _ hb).twin _ _ rfl
        obtain ⟨m1, m2⟩ := mir_pos hp hpl id (hsym id (by simp)) hb
        obtain ⟨L, R, h1, h2, hd, hw, _, _, rfl⟩ := segData_ok hr
        obtain ⟨L', R', h1', h2', _, _, _, _, rfl⟩ := segData_ok hl
        rw [m1, h2] at h1'
        rw [m2, h1] at h2'
        simp only [mirPos, Except.ok.injEq] at h1' h2'
        subst h1'; subst h2'
        have hrest := ih (fun id' hid => hsym id' (by simp [hid])) vs' h
        simp only [List.flatten_cons, List.map_append, ← List.append_assoc, List.map_map]
        refine SelfMirror.append ?_ hrest
        rw [ht.n]
        exact selfMirror_pair fun i hi => segSection_mir ht hd hw c hi

theorem grid_selfMirror {p : Plane} (hp : PlaneInv p) (hs : SymmetricPlane p) {c : Bool} {g : Grid}
    (hg : mkGrid p c = .ok g) : SelfMirror g.data := by
  obtain ⟨vs, hvs, h1, _, _⟩ := mkGrid_ok hg
  rw [h1]
  rw [segments_eq] at hvs
  refine selfMirror_wings hp hs.centred c (p.wings.map (·.2)) ?_ vs ?_
  · intro id hid
    obtain ⟨kv, hkv, rfl⟩ := List.mem_map.1 hid
    exact hs.wings kv hkv
  · rw [List.filterMap_map]; exact hvs

/-- the index involution as a permutation -/
theorem SelfMirror.perm {L : List GridSec} (h : SelfMirror L) :
    ∃ σ : Fin L.length ≃ Fin L.length, ∀ i, MirRel (L.get i) (L.get (σ i)) := by
  obtain ⟨f, hf⟩ := h
  let F : Fin L.length → Fin L.length := fun i => ⟨f i, (hf i i.2).1⟩
  have hF : Function.Involutive F := fun i => Fin.ext (hf i i.2).2.1
  refine ⟨hF.toPerm, fun i => ?_⟩
  obtain ⟨_, _, x, y, hx, hy, hr⟩ := hf i i.2
  have e1 : L.get i = x := by
    rw [List.getElem?_eq_getElem i.2] at hx
    simpa using hx
  have e2 : L.get (F i) = y := by
    rw [List.getElem?_eq_getElem (F i).2] at hy
    simpa using hy
  rw [e1]
  show MirRel x (L.get (F i))
  rw [e2]; exact hr

end Verif
