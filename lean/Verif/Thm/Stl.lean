import Verif.Lemmas.Stl
import Verif.Thm.StlGeom
import Verif.Thm.PropBlade
import Verif.Thm.Blade
import Verif.Thm.Naca

/-!
# The STL mesh (C72, C75, C78)
-/

namespace Verif
open V3

variable {ι : Type} {flt : List Char → Option ℝ}

theorem Surf.facets_length (S : Surf) : S.facets.length = (S.rows - 1) * 98 := by
  rw [Surf.facets_eq]
  apply triangles_length
  intro P i j
  split_ifs <;> rfl

/-- `S` is the surface `stlSegment` writes for the segment `s`, whose sections are entries `a`, `a + 1`, ... of the grid, with the outlines
`L` and `R` -/
def SegDrawn (g : Grid) (s : Seg × (ℕ × ℕ)) (L R : ℕ → ℝ × ℝ) (S : Surf) : Prop :=
  S.rows = s.1.n ∧ S.rev = false ∧ ∀ i j, S.P i j = wingPoint s.1.side L R (g.data.getD (s.2.1 + i) GridSec.blank) j

theorem atLeft_eq (s : Seg) : (leftRight s.side s.root s.tip).1 = s.atLeft := by
  unfold Seg.atLeft leftRight
  cases s.side <;> rfl

theorem atRight_eq (s : Seg) : (leftRight s.side s.root s.tip).2 = s.atRight := by
  unfold Seg.atRight leftRight
  cases s.side <;> rfl

/-- the surface of a segment is drawn with the airfoils it names -/
def SegOwn (flt : List Char → Option ℝ) (g : Grid) (s : Seg × (ℕ × ℕ)) (S : Surf) : Prop :=
  ∃ L R, OwnOutline flt s.1.atLeft.name L ∧ OwnOutline flt s.1.atRight.name R ∧ SegDrawn g s L R S

theorem readVar_plot {v : Option (List Char)} {O : ℕ → ℝ × ℝ} (h : (readVar v >>= plotNACA flt) = .ok O) :
    ∃ d, v = some d ∧ plotNACA flt d = .ok O := by
  rcases v with _ | d
  · cases h
  · exact ⟨d, rfl, h⟩

theorem digits_own {name : String} {prev : Option (List Char)} {d : List Char} {O : ℕ → ℝ × ℝ}
    (h : nacaDigits name prev = some d) (ho : plotNACA flt d = .ok O) : OwnOutline flt name O := by
  intro hw
  rw [nacaDigits_own hw] at h
  cases h
  exact ho

/-- one segment -/
theorem stlSegment_ok {g : Grid} {v v' : StlVars} {s : Seg × (ℕ × ℕ)} (h : stlSegment flt g v s = .ok v') (hn : 1 ≤ s.1.n)
    {pre x post : List Facet} (hm : v.mesh = pre ++ x ++ post) (hx : x.length = (s.1.n - 1) * 98) (hp : (pre.length : ℤ) = v.index) :
    ∃ S, SegOwn flt g s S ∧ v'.mesh = pre ++ S.facets ++ post ∧ v'.index = v.index + S.facets.length := by
  obtain ⟨seg, sl⟩ := s
  unfold stlSegment at h
  simp only at h hx hn
  rcases hL : (readVar (nacaDigits (leftRight seg.side seg.root seg.tip).1.name v.left) >>= plotNACA flt) with e | L
  · rw [hL] at h; cases h
  rcases hR : (readVar (nacaDigits (leftRight seg.side seg.root seg.tip).2.name v.right) >>= plotNACA flt) with e | R
  · rw [hL, hR] at h; cases h
  rw [hL, hR] at h
  simp only [bind, Except.bind] at h
  rw [hm, writeSurface_at panel_length _ _ pre x post hx hp] at h
  simp only [pure, Except.pure, Except.ok.injEq] at h
  obtain ⟨dL, l1, l2⟩ := readVar_plot hL
  obtain ⟨dR, r1, r2⟩ := readVar_plot hR
  refine ⟨⟨fun i j => wingPoint seg.side L R (g.data.getD (sl.1 + i) GridSec.blank) j, seg.n, false⟩,
    ⟨L, R, by rw [← atLeft_eq]; exact digits_own l1 l2, by rw [← atRight_eq]; exact digits_own r1 r2, rfl, rfl, fun _ _ => rfl⟩, ?_, ?_⟩
  · rw [← h, Surf.facets_eq]; rfl
  · rw [← h, Surf.facets_length]
    simp only [nOut]
    obtain ⟨m, hmm⟩ : ∃ m, seg.n = m + 1 := ⟨seg.n - 1, by omega⟩
    rw [hmm]
    push_cast
    ring

theorem segments_ok {g : Grid} : ∀ (l : List (Seg × (ℕ × ℕ))) {v v' : StlVars}, l.foldlM (stlSegment flt g) v = .ok v' →
    (∀ s ∈ l, 1 ≤ s.1.n) → ∀ {pre x post : List Facet}, v.mesh = pre ++ x ++ post →
    x.length = (l.map fun s => (s.1.n - 1) * 98).sum → (pre.length : ℤ) = v.index →
    ∃ Ss, List.Forall₂ (SegOwn flt g) l Ss ∧ v'.mesh = pre ++ Ss.flatMap Surf.facets ++ post ∧
      v'.index = v.index + (Ss.flatMap Surf.facets).length ∧ (Ss.flatMap Surf.facets).length = x.length := by
  intro l
  induction l with
  | nil =>
    intro v v' h _ pre x post hm hx _
    simp only [List.foldlM_nil, pure, Except.pure, Except.ok.injEq] at h
    subst h
    have : x = [] := by simpa using hx
    subst this
    exact ⟨[], .nil, by simpa using hm, by simp, by simp⟩
  | cons s t ih =>
    intro v v' h hn pre x post hm hx hp
    rw [List.foldlM_cons] at h
    rcases h1 : stlSegment flt g v s with e | v1
    · simp [h1, bind, Except.bind] at h
    simp only [h1, bind, Except.bind] at h
    simp only [List.map_cons, List.sum_cons] at hx
    set a := (s.1.n - 1) * 98
    have e : v.mesh = pre ++ x.take a ++ (x.drop a ++ post) := by
      rw [hm, List.append_assoc, List.append_assoc, ← List.append_assoc (x.take _), List.take_append_drop]
    obtain ⟨S, hS, m1, i1⟩ := stlSegment_ok h1 (hn s (by simp)) e (by simp [hx, a]) hp
    have hSl : S.facets.length = a := by
      obtain ⟨_, _, _, _, hS, _⟩ := hS
      rw [Surf.facets_length, hS]
    obtain ⟨Ss, hSs, m2, i2, l2⟩ := ih h (fun s hs => hn s (by simp [hs])) (pre := pre ++ S.facets) (x := x.drop a) (post := post)
      (by rw [m1]; simp) (by simp [hx]) (by rw [List.length_append, i1, ← hp]; push_cast; ring)
    refine ⟨S :: Ss, .cons hS hSs, ?_, ?_, ?_⟩
    · rw [m2]; simp
    · rw [i2, i1]; simp; ring
    · rw [List.flatMap_cons, List.length_append, l2, hSl]; simp [hx]

theorem propOutlines_ok : ∀ (l : List (ℝ × Airfoil)) {v v' : Option (List Char)} {outs : List (ℕ → ℝ × ℝ)},
    propOutlines flt (l.map Prod.snd) v = .ok (outs, v') →
    List.Forall₂ (fun (a : ℝ × Airfoil) O => OwnOutline flt a.2.name O) l outs := by
  intro l
  induction l with
  | nil =>
    intro v v' outs h
    simp only [List.map_nil, propOutlines, Except.ok.injEq, Prod.mk.injEq] at h
    rw [← h.1]; exact .nil
  | cons a t ih =>
    intro v v' outs h
    simp only [List.map_cons, propOutlines] at h
    rcases h1 : (readVar (nacaDigits a.2.name v) >>= plotNACA flt) with e | O
    · rw [h1] at h; cases h
    rcases h2 : propOutlines flt (t.map Prod.snd) (nacaDigits a.2.name v) with e | ⟨l, w⟩
    · rw [h1, h2] at h; cases h
    rw [h1, h2] at h
    simp only [bind, Except.bind, pure, Except.pure, Except.ok.injEq, Prod.mk.injEq] at h
    rw [← h.1]
    obtain ⟨d, d1, d2⟩ := readVar_plot h1
    exact .cons (digits_own d1 d2) (ih h2)

/-- a propeller model made by its constructor -/
def Constructed (M : PropM ι) : Prop := ∃ table q cg units pts, mkPropM table q cg units pts = .ok M

theorem Constructed.nodes {M : PropM ι} (h : Constructed M) : 1 ≤ M.nodes := by
  obtain ⟨table, q, cg, units, pts, h⟩ := h
  obtain ⟨-, h1, h2, -⟩ := mkPropM_ok h
  unfold PropM.nodes
  rw [h2]
  omega

theorem Constructed.zeta {M : PropM ι} (h : Constructed M) {i : ℕ} (hi : i < M.nodes) : (M.stn i).zeta = stationAt M.geom i := by
  obtain ⟨table, q, cg, units, pts, h⟩ := h
  obtain ⟨-, -, h2, -, -, -, -, af, -, hst⟩ := mkPropM_ok h
  unfold PropM.nodes at hi
  rw [h2] at hi ⊢
  obtain ⟨beta, cb, -, -, hs⟩ := hst i hi
  unfold mkStn at hs
  simp only at hs
  split_ifs at hs with hf
  simp only [Option.some.injEq] at hs
  rw [← hs]
  exact zetaAt_eq q i

/-- the angle `create_stl` uses -/
noncomputable def drawnAngle (M : PropM ι) (i : ℕ) : ℝ := (M.stn i).beta - (M.stn i).af.aL0

theorem bladePoint_section (M : PropM ι) (i : ℕ) (o : ℝ × ℝ) :
    bladePoint M i o.1 o.2 = bladeSection M.rot (M.stn i).r (M.stn i).cb (drawnAngle M i) o := by
  unfold bladePoint bladeSection
  simp only [body_rotZ, rotZ]
  have e1 : Real.cos ((M.stn i).af.aL0 - (M.stn i).beta) = Real.cos (drawnAngle M i) := by
    rw [← Real.cos_neg]; congr 1; simp only [drawnAngle]; ring
  have e2 : Real.sin ((M.stn i).af.aL0 - (M.stn i).beta) = -Real.sin (drawnAngle M i) := by
    rw [← Real.sin_neg]; congr 1; simp only [drawnAngle]; ring
  rcases rot_cases M.geom with h | h <;> unfold PropM.rot <;> rw [h] <;> ext <;> simp [e1, e2, drawnAngle] <;> ring

open Classical in
theorem outline_along {q : PropGeom} {afs : List (ℝ × Airfoil)} {outs : List (ℕ → ℝ × ℝ)} (h : spanList q = .ok afs)
    (ho : List.Forall₂ (fun (a : ℝ × Airfoil) O => OwnOutline flt a.2.name O) afs outs) (i j : ℕ) :
    OutlineAlong flt q i j (outlineAt ((afs.map Prod.fst).zip outs) (stationAt q i) j) := by
  unfold spanList at h
  split at h
  · rename_i he
    simp only [Except.ok.injEq] at h
    subst h
    obtain ⟨O, t, h1, h2, rfl⟩ := List.forall₂_cons_left_iff.1 ho
    cases h2
    exact .inl ⟨he, O, h1, rfl⟩
  · rename_i n a he
    simp only [Except.ok.injEq] at h
    subst h
    obtain ⟨O, t, h1, h2, rfl⟩ := List.forall₂_cons_left_iff.1 ho
    cases h2
    exact .inr (.inl ⟨n, a, O, he, h1, rfl⟩)
  · rename_i h0 h1
    have hl : 2 ≤ q.airfoils.length := by
      match hq : q.airfoils with
      | [] => exact absurd hq h0
      | [(n, a)] => exact absurd hq (h1 n a)
      | _ :: _ :: _ => simp
    rcases hm : q.airfoils.mapM (fun kv => do
      let x ← spanFrac (zetaAt q 0) (zetaAt q (q.nodes - 1)) kv.2.spanPosition
      return (x, kv.2)) with e | pos
    · rw [hm] at h; cases h
    rw [hm] at h
    simp only [bind, Except.bind] at h
    split_ifs at h with hn
    simp only [pure, Except.pure, Except.ok.injEq] at h
    obtain ⟨hpl, hsort⟩ := placed_pos hm hn
    rw [h] at hsort hn
    have hperm : afs.Perm pos := by rw [← h]; exact List.perm_insertionSort _ _
    have hlen : outs.length = afs.length := ho.length_eq.symm
    have hlen2 : 2 ≤ afs.length := by
      rw [hperm.length_eq, ← hpl.1.length_eq]; exact hl
    set Q : List (ℝ × Airfoil × (ℕ → ℝ × ℝ)) := (afs.zip outs).map fun p => (p.1.1, p.1.2, p.2) with hQ
    have hQ1 : (Q.map fun p => (p.1, p.2.1)) = afs := by
      rw [hQ, List.map_map]
      exact List.map_fst_zip (by omega)
    have hQ2 : ((afs.map Prod.fst).zip outs) = Q.map fun p => (p.1, p.2.2) := by
      rw [hQ, List.map_map, List.zip_map_left]
      rfl
    have hQs : ∀ f : (ℕ → ℝ × ℝ) → ℝ, (Q.map fun p => (p.1, f p.2.2)).Pairwise fun a b => a.1 < b.1 := by
      intro f
      have := hsort
      rw [← hQ1, List.pairwise_map] at this
      rw [List.pairwise_map]
      exact this
    have hQl : 2 ≤ Q.length := by rw [← hQ1, List.length_map] at hlen2; exact hlen2
    have hout : outlineAt ((afs.map Prod.fst).zip outs) (stationAt q i) j =
        (interpFill (Q.map fun p => (p.1, (p.2.2 j).1)) (stationAt q i), interpFill (Q.map fun p => (p.1, (p.2.2 j).2)) (stationAt q i)) := by
      rw [hQ2]
      unfold outlineAt
      split
      · rename_i x O hx
        have := congrArg List.length hx
        rw [List.length_map, List.length_singleton] at this
        omega
      · simp only [List.map_map]
        rfl
    refine .inr (.inr ⟨hl, Q, ⟨pos, hpl, by rw [hQ1]; exact hperm⟩, ?_, ?_, ?_⟩)
    · intro p hp
      rw [hQ] at hp
      obtain ⟨⟨a, O⟩, h3, rfl⟩ := List.mem_map.1 hp
      obtain ⟨k, hk, hk'⟩ := List.getElem_of_mem h3
      rw [List.getElem_zip] at hk'
      simp only [Prod.mk.injEq] at hk'
      have := (List.forall₂_iff_get.1 ho).2 k (by simp at hk; omega) (by simp at hk; omega)
      simp only [List.get_eq_getElem, hk'.1, hk'.2] at this
      exact this
    · rw [hout]
      exact interpFill_spec (hQs fun O => (O j).1) _
    · rw [hout]
      exact interpFill_spec (hQs fun O => (O j).2) _

open Classical in
/-- one propeller -/
theorem stlProp_ok {v v' : StlPropVars} {M : PropM ι} (h : stlProp flt v M = .ok v') (hM : Constructed M)
    {pre x post : List Facet} (hm : v.mesh = pre ++ x ++ post) (hx : x.length = M.geom.blades * ((M.nodes - 1) * 98))
    (hp : (pre.length : ℤ) = v.index) :
    ∃ S, DrawsProp flt M (drawnAngle M) S ∧ v'.mesh = pre ++ S.flatMap Surf.facets ++ post ∧
      v'.index = v.index + (S.flatMap Surf.facets).length ∧ (S.flatMap Surf.facets).length = x.length := by
  have hn := hM.nodes
  unfold stlProp at h
  rcases h1 : spanList M.geom with e | afs
  · simp [h1, bind, Except.bind] at h
  simp only [h1, bind, Except.bind] at h
  rcases h2 : propOutlines flt (afs.map Prod.snd) v.naca with e | ⟨outs, naca⟩
  · simp [h2] at h
  simp only [h2] at h
  by_cases hk : M.geom.blades = 0
  · rw [if_pos hk] at h; cases h
  rw [if_neg hk] at h
  set O := outlineAt ((afs.map Prod.fst).zip outs)
  let P (b : ℕ) (i j : ℕ) : V3 := body2Fixed (spin (euler2Quat (2 * Real.pi / M.geom.blades) 0 0) b
    (bladePoint M i (O (M.stn i).zeta j).1 (O (M.stn i).zeta j).2))
      (euler2Quat 0 (rad M.geom.orientation.1) (rad M.geom.orientation.2)) + M.geom.position
  let S (b : ℕ) : Surf := ⟨P b, M.nodes, decide (M.rot ≠ 1)⟩
  have htri : ∀ b, (S b).facets = triangles (if M.rot = 1 then panel else panelRev) (P b) M.nodes := by
    intro b
    rw [Surf.facets_eq]
    simp only [S]
    by_cases hr : M.rot = 1
    · simp [hr]
    · simp [hr]
  have hf := fold_blocks (c := (M.nodes - 1) * 98) (m := M.geom.blades) (blk := fun b => (S b).facets) (base := v.index)
    (step := fun mesh b => writeSurface (if M.rot = 1 then panel else panelRev) (P b) M.nodes
      (v.index + ((M.nodes : ℤ) - 1) * ((nOut : ℤ) - 1) * 2 * b) mesh)
    (fun b => by rw [Surf.facets_length])
    (fun b pre x post hx hp => by
      rw [htri]
      refine writeSurface_at (by intro P i j; split_ifs <;> rfl) _ _ _ _ _ hx ?_
      rw [hp]
      obtain ⟨m, hmm⟩ : ∃ m, M.nodes = m + 1 := ⟨M.nodes - 1, by omega⟩
      rw [hmm]
      simp only [nOut]
      push_cast
      ring) pre x post hx hp
  rw [← hm] at hf
  rw [show (List.range M.geom.blades).foldlM (fun mesh b => writeSurface (if M.rot = 1 then panel else panelRev) (P b) M.nodes
      (v.index + ((M.nodes : ℤ) - 1) * ((nOut : ℤ) - 1) * 2 * b) mesh) v.mesh = _ from hf] at h
  simp only [pure, Except.pure, Except.ok.injEq] at h
  have hfl : ((List.range M.geom.blades).map S).flatMap Surf.facets = (List.range M.geom.blades).flatMap fun b => (S b).facets := by
    rw [List.flatMap_map]
  have hlen : ((List.range M.geom.blades).flatMap fun b => (S b).facets).length = M.geom.blades * ((M.nodes - 1) * 98) := by
    rw [List.length_flatMap]
    simp [Surf.facets_length, S]
  refine ⟨(List.range M.geom.blades).map S, ⟨by simp, fun i j => O (stationAt M.geom i) j, fun i j =>
    outline_along h1 (propOutlines_ok _ h2) i j, fun b hb => ?_⟩, ?_, ?_, ?_⟩
  · simp only [List.getElem_map, List.getElem_range]
    refine ⟨rfl, by simp [S], fun i j hi => ?_⟩
    simp only [S, P]
    rw [bladePoint_section, hM.zeta hi]
    rw [(C74_blades hk b _).1, C73_euler]
    rw [show ∀ u, rotX 0 u = u from fun u => by simp [rotX]]
    exact add_comm _ _
  · rw [← h, hfl]
  · rw [← h, hfl, hlen]
    obtain ⟨m, hmm⟩ : ∃ m, M.nodes = m + 1 := ⟨M.nodes - 1, by omega⟩
    rw [hmm]
    simp only [nOut]
    push_cast
    ring
  · rw [hfl, hlen, hx]


theorem props_ok : ∀ (l : List (PropM ι)) {v v' : StlPropVars}, l.foldlM (stlProp flt) v = .ok v' →
    (∀ M ∈ l, Constructed M) → ∀ {pre x post : List Facet}, v.mesh = pre ++ x ++ post →
    x.length = (l.map fun M => M.geom.blades * ((M.nodes - 1) * 98)).sum → (pre.length : ℤ) = v.index →
    ∃ Bs, List.Forall₂ (fun M S => DrawsProp flt M (drawnAngle M) S) l Bs ∧ v'.mesh = pre ++ Bs.flatten.flatMap Surf.facets ++ post ∧
      (Bs.flatten.flatMap Surf.facets).length = x.length := by
  intro l
  induction l with
  | nil =>
    intro v v' h _ pre x post hm hx _
    simp only [List.foldlM_nil, pure, Except.pure, Except.ok.injEq] at h
    subst h
    have : x = [] := by simpa using hx
    subst this
    exact ⟨[], .nil, by simpa using hm, by simp⟩
  | cons M t ih =>
    intro v v' h hn pre x post hm hx hp
    rw [List.foldlM_cons] at h
    rcases h1 : stlProp flt v M with e | v1
    · simp [h1, bind, Except.bind] at h
    simp only [h1, bind, Except.bind] at h
    simp only [List.map_cons, List.sum_cons] at hx
    set a := M.geom.blades * ((M.nodes - 1) * 98)
    have e : v.mesh = pre ++ x.take a ++ (x.drop a ++ post) := by
      rw [hm, List.append_assoc, List.append_assoc, ← List.append_assoc (x.take _), List.take_append_drop]
    obtain ⟨S, hS, m1, i1, l1⟩ := stlProp_ok h1 (hn M (by simp)) e (by simp [hx, a]) hp
    obtain ⟨Bs, hBs, m2, l2⟩ := ih h (fun s hs => hn s (by simp [hs])) (pre := pre ++ S.flatMap Surf.facets) (x := x.drop a) (post := post)
      (by rw [m1]; simp) (by simp [hx]) (by rw [List.length_append, i1, ← hp]; push_cast; ring)
    refine ⟨S :: Bs, .cons hS hBs, ?_, ?_⟩
    · rw [m2]; simp
    · rw [List.flatten_cons, List.flatMap_append, List.length_append, l2, l1]; simp [hx]

theorem wingFaces (segs : List Seg) (hn : ∀ s ∈ segs, 1 ≤ s.n) :
    ((((segs.map Seg.n).sum : ℕ) : ℤ) - segs.length) * ((nOut : ℤ) - 1) * 2 = ((segs.map fun s => (s.n - 1) * 98).sum : ℕ) := by
  induction segs with
  | nil => simp
  | cons s t ih =>
    have h1 := ih fun s hs => hn s (by simp [hs])
    obtain ⟨m, hm⟩ : ∃ m, s.n = m + 1 := ⟨s.n - 1, by have := hn s (by simp); omega⟩
    simp only [List.map_cons, List.sum_cons, List.length_cons, hm, Nat.add_sub_cancel]
    push_cast at h1 ⊢
    rw [← h1]
    simp only [nOut]
    push_cast
    ring

theorem propFaces (props : List (PropM ι)) (hn : ∀ M ∈ props, 1 ≤ M.nodes) :
    (props.map fun M => (M.geom.blades : ℤ) * ((M.nodes : ℤ) - 1) * ((nOut : ℤ) - 1) * 2).sum =
      ((props.map fun M => M.geom.blades * ((M.nodes - 1) * 98)).sum : ℕ) := by
  induction props with
  | nil => simp
  | cons M t ih =>
    have h1 := ih fun s hs => hn s (by simp [hs])
    obtain ⟨m, hm⟩ : ∃ m, M.nodes = m + 1 := ⟨M.nodes - 1, by have := hn M (by simp); omega⟩
    simp only [List.map_cons, List.sum_cons, h1, hm, Nat.add_sub_cancel]
    simp only [nOut]
    push_cast
    ring

theorem mesh_ok {segs : List Seg} {g : Grid} {props : List (PropM ι)} {mesh : List Facet}
    (h : createStl flt (some (segs, g)) props = .ok mesh) (hn : ∀ s ∈ segs, 1 ≤ s.n) (hp : ∀ M ∈ props, Constructed M)
    (hlen : g.data.length = (segs.map Seg.n).sum) (hsl : g.slices.length = segs.length) :
    ∃ Ws Bs, List.Forall₂ (SegOwn flt g) (segs.zip g.slices) Ws ∧
      List.Forall₂ (fun M S => DrawsProp flt M (drawnAngle M) S) props Bs ∧
      mesh = (Ws ++ Bs.flatten).flatMap Surf.facets ∧ (mesh.length : ℤ) = numFaces (some (segs, g)) props := by
  have hnp : ∀ M ∈ props, 1 ≤ M.nodes := fun M hM => (hp M hM).nodes
  have hzip : ((segs.zip g.slices).map fun s => (s.1.n - 1) * 98) = segs.map fun s => (s.n - 1) * 98 := by
    rw [show (fun s : Seg × (ℕ × ℕ) => (s.1.n - 1) * 98) = (fun s : Seg => (s.n - 1) * 98) ∘ Prod.fst from rfl, ← List.map_map,
      List.map_fst_zip (by omega)]
  have hnum : numFaces (some (segs, g)) props = (((segs.map fun s => (s.n - 1) * 98).sum +
      (props.map fun M => M.geom.blades * ((M.nodes - 1) * 98)).sum : ℕ) : ℤ) := by
    unfold numFaces
    simp only [hlen]
    rw [wingFaces segs hn, propFaces props hnp]
    push_cast; ring
  set a := (segs.map fun s => (s.n - 1) * 98).sum
  set b := (props.map fun M => M.geom.blades * ((M.nodes - 1) * 98)).sum
  unfold createStl at h
  simp only [hnum] at h
  rw [if_neg (by omega)] at h
  simp only [Int.toNat_natCast] at h
  rw [List.replicate_add] at h
  rcases h1 : (segs.zip g.slices).foldlM (stlSegment flt g)
    { mesh := List.replicate a (⟨0, 0, 0⟩ : Facet) ++ List.replicate b ⟨0, 0, 0⟩ } with e | v
  · rw [h1] at h; cases h
  rw [h1] at h
  simp only [bind, Except.bind, pure, Except.pure] at h
  obtain ⟨Ws, hW, m1, i1, l1⟩ := segments_ok _ h1 (fun s hs => hn _ (List.of_mem_zip hs).1) (pre := [])
    (x := List.replicate a ⟨0, 0, 0⟩) (post := List.replicate b ⟨0, 0, 0⟩) (by simp) (by rw [hzip]; simp [a]) (by simp)
  rcases h2 : props.foldlM (stlProp flt) { index := v.index, mesh := v.mesh } with e | v2
  · rw [h2] at h; cases h
  rw [h2] at h
  simp only [Except.ok.injEq] at h
  obtain ⟨Bs, hB, m2, l2⟩ := props_ok _ h2 hp (pre := Ws.flatMap Surf.facets) (x := List.replicate b ⟨0, 0, 0⟩) (post := [])
    (by simp [m1]) (by simp [b]) (by rw [i1]; simp)
  refine ⟨Ws, Bs, hW, hB, ?_, ?_⟩
  · rw [← h, m2]; simp
  · rw [hnum, ← h, m2]
    simp only [List.append_nil, List.length_append, l1, l2, List.length_replicate]

/-- **C72 for propellers alone.** The file consists of exactly the triangles of the surfaces of all blades. -/
theorem C72_props {props : List (PropM ι)} {mesh : List Facet} (h : createStl flt none props = .ok mesh)
    (hp : ∀ M ∈ props, Constructed M) :
    ∃ Bs, List.Forall₂ (fun M S => DrawsProp flt M (drawnAngle M) S) props Bs ∧ mesh = Bs.flatten.flatMap Surf.facets ∧
      (mesh.length : ℤ) = numFaces none props := by
  have hnp : ∀ M ∈ props, 1 ≤ M.nodes := fun M hM => (hp M hM).nodes
  have hnum : numFaces none props = (((props.map fun M => M.geom.blades * ((M.nodes - 1) * 98)).sum : ℕ) : ℤ) := by
    unfold numFaces
    rw [propFaces props hnp]
    simp
  set b := (props.map fun M => M.geom.blades * ((M.nodes - 1) * 98)).sum
  unfold createStl at h
  simp only [hnum] at h
  rw [if_neg (by omega)] at h
  simp only [Int.toNat_natCast, bind, Except.bind, pure, Except.pure] at h
  rcases h2 : props.foldlM (stlProp flt) { index := 0, mesh := List.replicate b ⟨0, 0, 0⟩ } with e | v2
  · rw [h2] at h; cases h
  rw [h2] at h
  simp only [Except.ok.injEq] at h
  obtain ⟨Bs, hB, m2, l2⟩ := props_ok _ h2 hp (pre := []) (x := List.replicate b ⟨0, 0, 0⟩) (post := []) (by simp) (by simp [b]) (by simp)
  refine ⟨Bs, hB, ?_, ?_⟩
  · rw [← h, m2]; simp
  · rw [hnum, ← h, m2]
    simp only [List.append_nil, List.nil_append, l2, List.length_replicate]

section
variable {nm : String} {pos : Option V3} {ops : List PlaneOp} {c : Bool} {g : Grid}

theorem drawsSegment_of (hg : mkGrid (built nm pos ops) c = .ok g) {k : ℕ} {s : Seg} {ab : ℕ × ℕ} (hab : g.slices[k]? = some ab)
    {L R : ℕ → ℝ × ℝ} {S : Surf} (h : SegDrawn g (s, ab) L R S) : DrawsSegment (built nm pos ops) g k s L R S := by
  obtain ⟨h1, h2, h3⟩ := h
  refine ⟨h1, h2, fun i x hx j => ?_⟩
  have hx' := hx
  obtain ⟨-, a, b, k1, -, k3⟩ := hx
  rw [hab] at k1
  cases k1
  rw [h3]
  simp only [List.getD_eq_getElem?_getD, k3, Option.getD_some]
  rw [C79_orientation hg k s i x hx' L R j]
  simp only [mul_neg, neg_smul, ← sub_eq_add_neg]

/-- **C72 (and C79) for aircraft built through the API.** The file consists of exactly the triangles of the surfaces of all segments and all
blades, each surface once, in order: as many triangles as were allocated, none left blank, none written twice.  Every segment and
blade is drawn with the airfoils it names, if their names are ones `create_stl` promises to draw.  Assumption: at least one
section per segment. -/
theorem C72_aircraft (hg : mkGrid (built nm pos ops) c = .ok g) (hn : ∀ s ∈ (built nm pos ops).segments, 1 ≤ s.n) {props : List (PropM ι)}
    (hp : ∀ M ∈ props, Constructed M) {mesh : List Facet}
    (h : createStl flt (some ((built nm pos ops).segments, g)) props = .ok mesh) :
    ∃ (Ws : List Surf) (Bs : List (List Surf)), Ws.length = (built nm pos ops).segments.length ∧
      (∀ (k : ℕ) (s : Seg) (S : Surf), (built nm pos ops).segments[k]? = some s → Ws[k]? = some S →
        ∃ L R, OwnOutline flt s.atLeft.name L ∧ OwnOutline flt s.atRight.name R ∧ DrawsSegment (built nm pos ops) g k s L R S) ∧
      List.Forall₂ (fun M S => DrawsProp flt M (drawnAngle M) S) props Bs ∧ mesh = (Ws ++ Bs.flatten).flatMap Surf.facets ∧
      (mesh.length : ℤ) = numFaces (some ((built nm pos ops).segments, g)) props := by
  obtain ⟨c1, -, c3, -⟩ := C16_concatenation hg
  obtain ⟨Ws, Bs, h1, h2, h3, h4⟩ := mesh_ok h hn hp (by rw [c1, numSections_eq]; rfl) c3.length_eq.symm
  have hlen : ((built nm pos ops).segments.zip g.slices).length = (built nm pos ops).segments.length := by
    rw [List.length_zip, ← c3.length_eq, min_self]
  refine ⟨Ws, Bs, by rw [← h1.length_eq, hlen], fun k s S hs hS => ?_, h2, h3, h4⟩
  obtain ⟨hk, rfl⟩ := List.getElem?_eq_some_iff.1 hs
  obtain ⟨hk', rfl⟩ := List.getElem?_eq_some_iff.1 hS
  obtain ⟨L, R, q1, q2, q3⟩ := (List.forall₂_iff_get.1 h1).2 k (by omega) hk'
  simp only [List.get_eq_getElem, List.getElem_zip] at q1 q2 q3
  exact ⟨L, R, q1, q2, drawsSegment_of hg (List.getElem?_eq_getElem _) q3⟩

end

/-! ### create_stl succeeds -/

/-- the name is one `create_stl` promises to draw and its digits can be read -/
def Drawable (flt : List Char → Option ℝ) (name : String) : Prop := WellNamed name ∧ ∃ O, plotNACA flt (ownDigits name) = .ok O

theorem drawable_run {name : String} (h : Drawable flt name) (prev : Option (List Char)) :
    ∃ O, (readVar (nacaDigits name prev) >>= plotNACA flt) = .ok O := by
  obtain ⟨h1, O, h2⟩ := h
  rw [nacaDigits_own h1]
  exact ⟨O, h2⟩

theorem stlSegment_total {g : Grid} {v : StlVars} {s : Seg × (ℕ × ℕ)} (hr : Drawable flt s.1.root.name) (ht : Drawable flt s.1.tip.name)
    {pre x post : List Facet} (hm : v.mesh = pre ++ x ++ post) (hx : x.length = (s.1.n - 1) * 98) (hp : (pre.length : ℤ) = v.index) :
    ∃ v', stlSegment flt g v s = .ok v' := by
  obtain ⟨seg, sl⟩ := s
  have h1 : Drawable flt (leftRight seg.side seg.root seg.tip).1.name := by cases seg.side <;> assumption
  have h2 : Drawable flt (leftRight seg.side seg.root seg.tip).2.name := by cases seg.side <;> assumption
  obtain ⟨L, hL⟩ := drawable_run h1 v.left
  obtain ⟨R, hR⟩ := drawable_run h2 v.right
  unfold stlSegment
  simp only
  rw [hL, hR]
  simp only [bind, Except.bind]
  rw [hm, writeSurface_at panel_length _ _ pre x post hx hp]
  exact ⟨_, rfl⟩

theorem segments_total {g : Grid} : ∀ (l : List (Seg × (ℕ × ℕ))) (v : StlVars), (∀ s ∈ l, 1 ≤ s.1.n) →
    (∀ s ∈ l, Drawable flt s.1.root.name ∧ Drawable flt s.1.tip.name) → ∀ {pre x post : List Facet}, v.mesh = pre ++ x ++ post →
    x.length = (l.map fun s => (s.1.n - 1) * 98).sum → (pre.length : ℤ) = v.index →
    ∃ v', l.foldlM (stlSegment flt g) v = .ok v' := by
  intro l
  induction l with
  | nil => intro v _ _ pre x post _ _ _; exact ⟨v, rfl⟩
  | cons s t ih =>
    intro v hn hd pre x post hm hx hp
    simp only [List.map_cons, List.sum_cons] at hx
    set a := (s.1.n - 1) * 98
    have e : v.mesh = pre ++ x.take a ++ (x.drop a ++ post) := by
      rw [hm, List.append_assoc, List.append_assoc, ← List.append_assoc (x.take _), List.take_append_drop]
    obtain ⟨v1, h1⟩ := stlSegment_total (g := g) (hd s (by simp)).1 (hd s (by simp)).2 e (by simp [hx, a]) hp
    obtain ⟨S, hS, m1, i1⟩ := stlSegment_ok h1 (hn s (by simp)) e (by simp [hx, a]) hp
    obtain ⟨v2, h2⟩ := ih v1 (fun s hs => hn s (by simp [hs])) (fun s hs => hd s (by simp [hs])) (pre := pre ++ S.facets)
      (x := x.drop a) (post := post) (by rw [m1]; simp) (by simp [hx]) (by rw [List.length_append, i1, ← hp]; push_cast; ring)
    rw [List.foldlM_cons, h1]
    exact ⟨v2, h2⟩

theorem propOutlines_total : ∀ (l : List (ℝ × Airfoil)) (v : Option (List Char)), (∀ a ∈ l, Drawable flt a.2.name) →
    ∃ r, propOutlines flt (l.map Prod.snd) v = .ok r := by
  intro l
  induction l with
  | nil => intro v _; exact ⟨_, rfl⟩
  | cons a t ih =>
    intro v h
    obtain ⟨O, hO⟩ := drawable_run (h a (by simp)) v
    obtain ⟨r, hr⟩ := ih (nacaDigits a.2.name v) (fun b hb => h b (by simp [hb]))
    simp only [List.map_cons, propOutlines]
    rw [hO, hr]
    exact ⟨_, rfl⟩

open Classical in
theorem stlProp_total {v : StlPropVars} {M : PropM ι} (hn : 1 ≤ M.nodes) {afs : List (ℝ × Airfoil)} (h1 : spanList M.geom = .ok afs)
    (hd : ∀ a ∈ afs, Drawable flt a.2.name) (hk : M.geom.blades ≠ 0)
    {pre x post : List Facet} (hm : v.mesh = pre ++ x ++ post) (hx : x.length = M.geom.blades * ((M.nodes - 1) * 98))
    (hp : (pre.length : ℤ) = v.index) : ∃ v', stlProp flt v M = .ok v' := by
  unfold stlProp
  obtain ⟨⟨outs, naca⟩, h2⟩ := propOutlines_total afs v.naca hd
  simp only [h1, bind, Except.bind, h2]
  rw [if_neg hk]
  set O := outlineAt ((afs.map Prod.fst).zip outs)
  let P (b : ℕ) (i j : ℕ) : V3 := body2Fixed (spin (euler2Quat (2 * Real.pi / M.geom.blades) 0 0) b
    (bladePoint M i (O (M.stn i).zeta j).1 (O (M.stn i).zeta j).2))
      (euler2Quat 0 (rad M.geom.orientation.1) (rad M.geom.orientation.2)) + M.geom.position
  have hf := fold_blocks (c := (M.nodes - 1) * 98) (m := M.geom.blades)
    (blk := fun b => triangles (if M.rot = 1 then panel else panelRev) (P b) M.nodes) (base := v.index)
    (step := fun mesh b => writeSurface (if M.rot = 1 then panel else panelRev) (P b) M.nodes
      (v.index + ((M.nodes : ℤ) - 1) * ((nOut : ℤ) - 1) * 2 * b) mesh)
    (fun b => by rw [triangles_length (by intro P i j; split_ifs <;> rfl)])
    (fun b pre x post hx hp => by
      refine writeSurface_at (by intro P i j; split_ifs <;> rfl) _ _ _ _ _ hx ?_
      rw [hp]
      obtain ⟨m, hmm⟩ : ∃ m, M.nodes = m + 1 := ⟨M.nodes - 1, by omega⟩
      rw [hmm]
      simp only [nOut]
      push_cast
      ring) pre x post hx hp
  rw [← hm] at hf
  rw [show (List.range M.geom.blades).foldlM (fun mesh b => writeSurface (if M.rot = 1 then panel else panelRev) (P b) M.nodes
      (v.index + ((M.nodes : ℤ) - 1) * ((nOut : ℤ) - 1) * 2 * b) mesh) v.mesh = _ from hf]
  exact ⟨_, rfl⟩


theorem mapM_of {α β : Type} {f : α → Except PyErr β} {l : List α} {r : List β} (h : List.Forall₂ (fun a b => f a = .ok b) l r) :
    l.mapM f = .ok r := by
  induction h with
  | nil => rfl
  | cons h1 _ ih => rw [List.mapM_cons, h1, ih]; rfl

open Classical in
/-- the constructor has placed the airfoils -/
theorem spanList_total {M : PropM ι} (h : Constructed M) : ∃ afs, spanList M.geom = .ok afs ∧
    ∀ a ∈ afs, (M.geom.airfoils = [] ∧ a.2.name = "NACA2412") ∨ ∃ n, (n, a.2) ∈ M.geom.airfoils := by
  obtain ⟨table, q, cg, units, pts, h⟩ := h
  obtain ⟨-, -, h2, -, -, -, -, af, haf, -⟩ := mkPropM_ok h
  rw [h2]
  unfold bladeAf at haf
  unfold spanList
  split at haf
  · rename_i he
    rw [he]
    exact ⟨_, rfl, fun a ha => .inl ⟨rfl, by rw [List.mem_singleton.1 ha]; rfl⟩⟩
  · rename_i n a he
    rw [he]
    exact ⟨_, rfl, fun b hb => .inr ⟨n, by rw [List.mem_singleton.1 hb]; simp⟩⟩
  · rename_i h0 h1
    rcases hm : q.airfoils.mapM (fun kv => do
      let x ← spanFrac (zetaAt q 0) (zetaAt q (q.nodes - 1)) kv.2.spanPosition
      return (x, kv.2.blade)) with e | pos
    · rw [hm] at haf; cases haf
    rw [hm] at haf
    simp only [bind, Except.bind] at haf
    split_ifs at haf with hn
    have hF := mapM_ok hm
    have hex : ∃ pos' : List (ℝ × Airfoil), List.Forall₂ (fun (kv : String × Airfoil) b => (do
        let x ← spanFrac (zetaAt q 0) (zetaAt q (q.nodes - 1)) kv.2.spanPosition
        return (x, kv.2) : Except PyErr (ℝ × Airfoil)) = .ok b ∧ b.2 = kv.2) q.airfoils pos' ∧ pos'.map Prod.fst = pos.map Prod.fst := by
      clear hm haf hn
      generalize q.airfoils = A at hF
      induction hF with
      | nil => exact ⟨[], .nil, rfl⟩
      | @cons a b A B k1 _ ih =>
        obtain ⟨l, k2, k3⟩ := ih
        rcases k4 : spanFrac (zetaAt q 0) (zetaAt q (q.nodes - 1)) a.2.spanPosition with e | x
        · simp [k4, bind, Except.bind] at k1
        simp only [k4, bind, Except.bind, pure, Except.pure, Except.ok.injEq] at k1
        exact ⟨(x, a.2) :: l, .cons ⟨by simp [k4, bind, Except.bind, pure, Except.pure], rfl⟩ k2, by rw [← k1]; simp [k3]⟩
    obtain ⟨pos', k1, k2⟩ := hex
    have hn' : ((pos'.insertionSort fun a b => a.1 ≤ b.1).map Prod.fst).Nodup := by
      rw [((List.perm_insertionSort _ pos').map Prod.fst).nodup_iff, k2]
      exact ((List.perm_insertionSort _ pos).map Prod.fst).nodup_iff.1 hn
    split
    · rename_i he; exact absurd he h0
    · rename_i n a he; exact absurd he (h1 n a)
    · rw [mapM_of (k1.imp fun _ _ h => h.1)]
      simp only [bind, Except.bind]
      rw [if_pos hn']
      refine ⟨_, rfl, fun a ha => .inr ?_⟩
      rw [(List.perm_insertionSort _ _).mem_iff] at ha
      obtain ⟨k, hk, rfl⟩ := List.getElem_of_mem ha
      have := (List.forall₂_iff_get.1 k1).2 k (by rw [k1.length_eq]; exact hk) hk
      simp only [List.get_eq_getElem] at this
      refine ⟨(q.airfoils[k]'(by rw [k1.length_eq]; exact hk)).1, ?_⟩
      rw [this.2]
      exact List.getElem_mem _

/-- the propeller has blades and its airfoils can be drawn -/
def PropDrawable (flt : List Char → Option ℝ) (M : PropM ι) : Prop :=
  Constructed M ∧ M.geom.blades ≠ 0 ∧ (M.geom.airfoils = [] → Drawable flt "NACA2412") ∧ ∀ a ∈ M.geom.airfoils, Drawable flt a.2.name

theorem props_total : ∀ (l : List (PropM ι)) (v : StlPropVars), (∀ M ∈ l, PropDrawable flt M) → ∀ {pre x post : List Facet},
    v.mesh = pre ++ x ++ post → x.length = (l.map fun M => M.geom.blades * ((M.nodes - 1) * 98)).sum → (pre.length : ℤ) = v.index →
    ∃ v', l.foldlM (stlProp flt) v = .ok v' := by
  intro l
  induction l with
  | nil => intro v _ pre x post _ _ _; exact ⟨v, rfl⟩
  | cons M t ih =>
    intro v hd pre x post hm hx hp
    simp only [List.map_cons, List.sum_cons] at hx
    set a := M.geom.blades * ((M.nodes - 1) * 98)
    have e : v.mesh = pre ++ x.take a ++ (x.drop a ++ post) := by
      rw [hm, List.append_assoc, List.append_assoc, ← List.append_assoc (x.take _), List.take_append_drop]
    obtain ⟨d1, d2, d3, d4⟩ := hd M (by simp)
    obtain ⟨afs, s1, s2⟩ := spanList_total d1
    obtain ⟨v1, h1⟩ := stlProp_total (flt := flt) d1.nodes s1 (fun a ha => by
      rcases s2 a ha with ⟨h, h'⟩ | ⟨n, h⟩
      · rw [h']; exact d3 h
      · exact d4 _ h) d2 e (by simp [hx, a]) hp
    obtain ⟨S, hS, m1, i1, l1⟩ := stlProp_ok h1 d1 e (by simp [hx, a]) hp
    obtain ⟨v2, h2⟩ := ih v1 (fun s hs => hd s (by simp [hs])) (pre := pre ++ S.flatMap Surf.facets)
      (x := x.drop a) (post := post) (by rw [m1]; simp) (by simp [hx]) (by rw [List.length_append, i1, ← hp]; push_cast; ring)
    rw [List.foldlM_cons, h1]
    exact ⟨v2, h2⟩

/-- **C72: `create_stl` does not run out of its array.** For every aircraft built through the API whose airfoil names can be drawn, with
any propellers whose airfoil names can be drawn, the file is written. -/
theorem C72_total {nm : String} {pos : Option V3} {ops : List PlaneOp} {c : Bool} {g : Grid}
    (hg : mkGrid (built nm pos ops) c = .ok g) (hn : ∀ s ∈ (built nm pos ops).segments, 1 ≤ s.n)
    (hd : ∀ s ∈ (built nm pos ops).segments, Drawable flt s.root.name ∧ Drawable flt s.tip.name)
    {props : List (PropM ι)} (hp : ∀ M ∈ props, PropDrawable flt M) :
    ∃ mesh, createStl flt (some ((built nm pos ops).segments, g)) props = .ok mesh := by
  obtain ⟨c1, -, c3, -⟩ := C16_concatenation hg
  set segs := (built nm pos ops).segments
  have hnp : ∀ M ∈ props, 1 ≤ M.nodes := fun M hM => (hp M hM).1.nodes
  have hlen : g.data.length = (segs.map Seg.n).sum := by rw [c1, numSections_eq]; rfl
  have hzip : ((segs.zip g.slices).map fun s => (s.1.n - 1) * 98) = segs.map fun s => (s.n - 1) * 98 := by
    rw [show (fun s : Seg × (ℕ × ℕ) => (s.1.n - 1) * 98) = (fun s : Seg => (s.n - 1) * 98) ∘ Prod.fst from rfl, ← List.map_map,
      List.map_fst_zip (by rw [c3.length_eq])]
  have hnum : numFaces (some (segs, g)) props = (((segs.map fun s => (s.n - 1) * 98).sum +
      (props.map fun M => M.geom.blades * ((M.nodes - 1) * 98)).sum : ℕ) : ℤ) := by
    unfold numFaces
    simp only [hlen]
    rw [wingFaces segs hn, propFaces props hnp]
    push_cast; ring
  set a := (segs.map fun s => (s.n - 1) * 98).sum
  set b := (props.map fun M => M.geom.blades * ((M.nodes - 1) * 98)).sum
  unfold createStl
  simp only [hnum]
  rw [if_neg (by omega), Int.toNat_natCast, List.replicate_add]
  obtain ⟨v, hv⟩ := segments_total (flt := flt) (g := g) (segs.zip g.slices)
    { mesh := List.replicate a (⟨0, 0, 0⟩ : Facet) ++ List.replicate b ⟨0, 0, 0⟩ }
    (fun s hs => hn _ (List.of_mem_zip hs).1) (fun s hs => hd _ (List.of_mem_zip hs).1) (pre := []) (x := List.replicate a ⟨0, 0, 0⟩)
    (post := List.replicate b ⟨0, 0, 0⟩) (by simp) (by rw [hzip, List.length_replicate]) (by simp)
  obtain ⟨Ws, hW, m1, i1, l1⟩ := segments_ok _ hv (fun s hs => hn _ (List.of_mem_zip hs).1) (pre := [])
    (x := List.replicate a ⟨0, 0, 0⟩) (post := List.replicate b ⟨0, 0, 0⟩) (by simp) (by rw [hzip]; simp [a]) (by simp)
  obtain ⟨v2, h2⟩ := props_total (flt := flt) props { index := v.index, mesh := v.mesh } hp (pre := Ws.flatMap Surf.facets)
    (x := List.replicate b ⟨0, 0, 0⟩) (post := []) (by simp [m1]) (by simp [b]) (by rw [i1]; simp)
  rw [hv]
  simp only [bind, Except.bind, pure, Except.pure, h2]
  exact ⟨_, rfl⟩

/-- **C72: propellers alone.** -/
theorem C72_props_total {props : List (PropM ι)} (hp : ∀ M ∈ props, PropDrawable flt M) : ∃ mesh, createStl flt none props = .ok mesh := by
  have hnp : ∀ M ∈ props, 1 ≤ M.nodes := fun M hM => (hp M hM).1.nodes
  have hnum : numFaces none props = (((props.map fun M => M.geom.blades * ((M.nodes - 1) * 98)).sum : ℕ) : ℤ) := by
    unfold numFaces
    rw [propFaces props hnp]
    simp
  set b := (props.map fun M => M.geom.blades * ((M.nodes - 1) * 98)).sum
  unfold createStl
  simp only [hnum]
  rw [if_neg (by omega), Int.toNat_natCast]
  obtain ⟨v2, h2⟩ := props_total (flt := flt) props { index := 0, mesh := List.replicate b ⟨0, 0, 0⟩ } hp (pre := [])
    (x := List.replicate b ⟨0, 0, 0⟩) (post := []) (by simp) (by simp [b]) (by simp)
  simp only [bind, Except.bind, pure, Except.pure, h2]
  exact ⟨_, rfl⟩

/-- **C75, the part that holds.** If all airfoils of the aircraft have names `create_stl` promises to draw (four-digit NACA names or
names that are not NACA names), the file consists of one surface per segment, in order, each with the outlines of the airfoils
the segment names at its two ends; then the propellers. -/
theorem C75_named_partial {nm : String} {pos : Option V3} {ops : List PlaneOp} {c : Bool} {g : Grid}
    (hg : mkGrid (built nm pos ops) c = .ok g) (hn : ∀ s ∈ (built nm pos ops).segments, 1 ≤ s.n)
    (hw : ∀ s ∈ (built nm pos ops).segments, WellNamed s.root.name ∧ WellNamed s.tip.name) {props : List (PropM ι)}
    (hp : ∀ M ∈ props, Constructed M) {mesh : List Facet}
    (h : createStl flt (some ((built nm pos ops).segments, g)) props = .ok mesh) :
    ∃ (Ws : List Surf) (rest : List Facet), mesh = Ws.flatMap Surf.facets ++ rest ∧ Ws.length = (built nm pos ops).segments.length ∧
      ∀ (k : ℕ) (s : Seg) (S : Surf), (built nm pos ops).segments[k]? = some s → Ws[k]? = some S →
        ∃ L R, plotNACA flt (ownDigits s.atLeft.name) = .ok L ∧ plotNACA flt (ownDigits s.atRight.name) = .ok R ∧
          DrawsSegment (built nm pos ops) g k s L R S := by
  obtain ⟨Ws, Bs, h0, h1, -, h2, -⟩ := C72_aircraft hg hn hp h
  refine ⟨Ws, Bs.flatten.flatMap Surf.facets, by rw [h2, List.flatMap_append], h0, fun k s S hs hS => ?_⟩
  obtain ⟨L, R, q1, q2, q3⟩ := h1 k s S hs hS
  obtain ⟨w1, w2⟩ := hw s (List.mem_of_getElem? hs)
  refine ⟨L, R, q1 ?_, q2 ?_, q3⟩
  · unfold Seg.atLeft; cases s.side <;> assumption
  · unfold Seg.atRight; cases s.side <;> assumption

/-! ### C75 fails -/

/-- a NACA name that is not a four-digit one -/
theorem not_wellNamed {name : String} (h : ¬ WellNamed name) (prev : Option (List Char)) : nacaDigits name prev = prev := by
  unfold WellNamed at h
  push Not at h
  unfold nacaDigits
  simp only
  have hc : name.toList.take 4 = ['N', 'A', 'C', 'A'] ∨ name.toList.take 4 = ['n', 'a', 'c', 'a'] := h.1
  rw [if_pos hc, if_neg h.2]

/-- **C75 fails: first segment.** If the first segment's airfoils have NACA names that are not four-digit ones, no file is
written at all. -/
theorem C75_first_refuted {g : Grid} {s : Seg} {sl : ℕ × ℕ} {segs : List Seg} {sls : List (ℕ × ℕ)} {props : List (PropM ι)}
    (hg : g.slices = sl :: sls) (h : ¬ WellNamed s.root.name) (ht : ¬ WellNamed s.tip.name) :
    createStl flt (some (s :: segs, g)) props = .error .unbound ∨ createStl flt (some (s :: segs, g)) props = .error .value := by
  unfold createStl
  simp only
  by_cases hn : numFaces (some (s :: segs, g)) props < 0
  · rw [if_pos hn]; exact .inr rfl
  · rw [if_neg hn]
    left
    have h1 : ¬ WellNamed (leftRight s.side s.root s.tip).1.name := by cases s.side <;> assumption
    rw [hg, List.zip_cons_cons, List.foldlM_cons]
    unfold stlSegment
    simp only
    rw [not_wellNamed h1]
    rfl

/-- Later segments: a later segment whose airfoils have NACA names that are not four-digit ones is drawn, without an
error, with the airfoils of the segment before it. -/
theorem later_previous {g : Grid} {v : StlVars} {s t : Seg × (ℕ × ℕ)} (hr : Drawable flt s.1.root.name)
    (htp : Drawable flt s.1.tip.name) (ht : ¬ WellNamed t.1.root.name) (ht' : ¬ WellNamed t.1.tip.name) (hn : 1 ≤ s.1.n)
    {pre x post : List Facet} (hm : v.mesh = pre ++ x ++ post) (hx : x.length = (s.1.n - 1) * 98 + (t.1.n - 1) * 98)
    (hp : (pre.length : ℤ) = v.index) :
    ∃ v2 L R, [s, t].foldlM (stlSegment flt g) v = .ok v2 ∧
      plotNACA flt (ownDigits (leftRight s.1.side s.1.root s.1.tip).1.name) = .ok L ∧
      plotNACA flt (ownDigits (leftRight s.1.side s.1.root s.1.tip).2.name) = .ok R ∧
      v2.mesh = pre ++ triangles panel (fun i j => wingPoint s.1.side L R (g.data.getD (s.2.1 + i) GridSec.blank) j) s.1.n ++
        triangles panel (fun i j => wingPoint t.1.side L R (g.data.getD (t.2.1 + i) GridSec.blank) j) t.1.n ++ post := by
  obtain ⟨seg, sl⟩ := s
  obtain ⟨teg, tl⟩ := t
  simp only at hx hn ht ht' hr htp
  have hm' : v.mesh = pre ++ x.take ((seg.n - 1) * 98) ++ (x.drop ((seg.n - 1) * 98) ++ post) := by
    rw [hm, List.append_assoc, List.append_assoc, ← List.append_assoc (x.take _), List.take_append_drop]
  have hx1 : (x.take ((seg.n - 1) * 98)).length = (seg.n - 1) * 98 := by simp [hx]
  have hx2 : (x.drop ((seg.n - 1) * 98)).length = (teg.n - 1) * 98 := by simp [hx]
  have k1 : ¬ WellNamed (leftRight teg.side teg.root teg.tip).1.name := by cases teg.side <;> assumption
  have k2 : ¬ WellNamed (leftRight teg.side teg.root teg.tip).2.name := by cases teg.side <;> assumption
  have q1 : Drawable flt (leftRight seg.side seg.root seg.tip).1.name := by cases seg.side <;> assumption
  have q2 : Drawable flt (leftRight seg.side seg.root seg.tip).2.name := by cases seg.side <;> assumption
  obtain ⟨w1, L, hL⟩ := q1
  obtain ⟨w2, R, hR⟩ := q2
  have e4 : (((pre ++ triangles panel (fun i j => wingPoint seg.side L R (g.data.getD (sl.1 + i) GridSec.blank) j) seg.n).length : ℕ) : ℤ) =
      v.index + ((seg.n : ℤ) - 1) * ((nOut : ℤ) - 1) * 2 := by
    rw [List.length_append, triangles_length panel_length]
    obtain ⟨m, hmm⟩ : ∃ m, seg.n = m + 1 := ⟨seg.n - 1, by omega⟩
    rw [hmm]
    simp only [nOut]
    push_cast
    rw [hp]
    ring
  simp only [List.foldlM_cons, List.foldlM_nil]
  unfold stlSegment
  simp only [not_wellNamed k1, not_wellNamed k2, nacaDigits_own w1, nacaDigits_own w2, readVar, bind, Except.bind, hL, hR, pure, Except.pure]
  rw [hm', writeSurface_at panel_length _ _ pre _ _ hx1 hp]
  simp only [hL, hR]
  rw [← List.append_assoc, writeSurface_at panel_length _ _ _ _ post hx2 e4]
  exact ⟨_, L, R, rfl, rfl, rfl, rfl⟩

/-- **C75 fails for a whole file.** In the file of an aircraft of two wing segments of which the second names NACA airfoils that are
not four-digit ones, both segments have the outlines of the first. -/
theorem C75_refuted {nm : String} {pos : Option V3} {ops : List PlaneOp} {c : Bool} {g : Grid} {s t : Seg}
    (hg : mkGrid (built nm pos ops) c = .ok g) (hs : (built nm pos ops).segments = [s, t]) (hn : 1 ≤ s.n) (hnt : 1 ≤ t.n)
    (hr : Drawable flt s.root.name) (htp : Drawable flt s.tip.name) (ht : ¬ WellNamed t.root.name) (ht' : ¬ WellNamed t.tip.name) :
    ∃ L R S T, plotNACA flt (ownDigits s.atLeft.name) = .ok L ∧ plotNACA flt (ownDigits s.atRight.name) = .ok R ∧
      DrawsSegment (built nm pos ops) g 0 s L R S ∧ DrawsSegment (built nm pos ops) g 1 t L R T ∧
      createStl (ι := ι) flt (some ((built nm pos ops).segments, g)) [] = .ok (S.facets ++ T.facets) := by
  obtain ⟨c1, c2, c3, -⟩ := C16_concatenation hg
  rw [hs] at c3
  have hlen : g.data.length = ([s, t].map Seg.n).sum := by rw [c1, numSections_eq, hs]; rfl
  obtain ⟨ab, cd, hsl⟩ : ∃ ab cd, g.slices = [ab, cd] := by
    have := c3.length_eq
    generalize g.slices = l at this
    match l, this with
    | [a, b], _ => exact ⟨a, b, rfl⟩
  rw [hsl] at c2 c3
  have hab : ab.1 = 0 ∧ cd.1 = s.n := by
    simp only [List.forall₂_cons] at c3
    cases c2 with
    | cons _ h => cases h with
      | cons _ h => exact ⟨rfl, by simpa using c3.1⟩
  have hnum : numFaces (ι := ι) (some ([s, t], g)) [] = (((s.n - 1) * 98 + (t.n - 1) * 98 : ℕ) : ℤ) := by
    unfold numFaces
    simp only [hlen]
    rw [wingFaces [s, t] (by simp; omega)]
    simp
  rw [hs]
  unfold createStl
  simp only [hnum]
  rw [if_neg (by omega), Int.toNat_natCast]
  obtain ⟨v2, L, R, h1, h2, h3, h4⟩ := later_previous (flt := flt) (g := g) (s := (s, ab)) (t := (t, cd)) hr htp ht ht' hn
    (v := { mesh := List.replicate ((s.n - 1) * 98 + (t.n - 1) * 98) ⟨0, 0, 0⟩ }) (pre := []) (post := []) (by simp; rfl) (by simp) (by simp)
  refine ⟨L, R, ⟨fun i j => wingPoint s.side L R (g.data.getD (ab.1 + i) GridSec.blank) j, s.n, false⟩,
    ⟨fun i j => wingPoint t.side L R (g.data.getD (cd.1 + i) GridSec.blank) j, t.n, false⟩, by rw [← atLeft_eq]; exact h2,
    by rw [← atRight_eq]; exact h3, drawsSegment_of hg (ab := ab) (by rw [hsl]; rfl) ⟨rfl, rfl, fun _ _ => rfl⟩,
    drawsSegment_of hg (ab := cd) (by rw [hsl]; rfl) ⟨rfl, rfl, fun _ _ => rfl⟩, ?_⟩
  rw [Surf.facets_eq, Surf.facets_eq, hsl, show [s, t].zip [ab, cd] = [(s, ab), (t, cd)] from rfl, h1]
  simp only [bind, Except.bind, pure, Except.pure, List.foldlM_nil, h4, List.nil_append, List.append_nil]
  rfl

/-! ### C78 -/

theorem drawable_2412 : Drawable digitsFlt "NACA2412" := by
  refine ⟨fun _ => by decide, ?_⟩
  rw [show ownDigits "NACA2412" = ['2', '4', '1', '2'] by decide]
  exact plot_2412

/-- `mesh` is what `create_stl` writes for an aircraft with the propellers `props`: with wings, built through the API with at least one
section per segment, or without -/
def StlFile (flt : List Char → Option ℝ) (props : List (PropM ι)) (mesh : List Facet) : Prop :=
  createStl flt none props = .ok mesh ∨ ∃ nm pos ops c g, mkGrid (built nm pos ops) c = .ok g ∧
    (∀ s ∈ (built nm pos ops).segments, 1 ≤ s.n) ∧ createStl flt (some ((built nm pos ops).segments, g)) props = .ok mesh

/-- every propeller is in the file -/
theorem prop_in_file {props : List (PropM ι)} {mesh : List Facet} (h : StlFile flt props mesh) (hp : ∀ M ∈ props, Constructed M)
    {M : PropM ι} (hM : M ∈ props) :
    ∃ (pre post : List Facet) (S : List Surf), DrawsProp flt M (drawnAngle M) S ∧ mesh = pre ++ S.flatMap Surf.facets ++ post := by
  have key : ∃ (Ws : List Surf) (Bs : List (List Surf)), List.Forall₂ (fun M S => DrawsProp flt M (drawnAngle M) S) props Bs ∧
      mesh = (Ws ++ Bs.flatten).flatMap Surf.facets := by
    rcases h with h | ⟨nm, pos, ops, c, g, hg, hn, h⟩
    · obtain ⟨Bs, h1, h2, -⟩ := C72_props h hp
      exact ⟨[], Bs, h1, by rw [h2]; rfl⟩
    · obtain ⟨Ws, Bs, -, -, h1, h2, -⟩ := C72_aircraft hg hn hp h
      exact ⟨Ws, Bs, h1, h2⟩
  obtain ⟨Ws, Bs, h1, h2⟩ := key
  obtain ⟨k, hk, rfl⟩ := List.getElem_of_mem hM
  have hk' : k < Bs.length := by rw [← h1.length_eq]; exact hk
  have hd := (List.forall₂_iff_get.1 h1).2 k hk hk'
  simp only [List.get_eq_getElem] at hd
  have e : Bs = Bs.take k ++ Bs[k] :: Bs.drop (k + 1) := by
    rw [← List.drop_eq_getElem_cons, List.take_append_drop]
  refine ⟨(Ws ++ (Bs.take k).flatten).flatMap Surf.facets, (Bs.drop (k + 1)).flatten.flatMap Surf.facets, Bs[k], hd, ?_⟩
  rw [h2]
  conv_lhs => rw [e]
  simp only [List.flatten_append, List.flatten_cons, List.flatMap_append, List.append_assoc]

theorem DrawsProp.congr {M : PropM ι} {a a' : ℕ → ℝ} {S : List Surf} (h : DrawsProp flt M a S) (e : ∀ i, i < M.geom.nodes → a i = a' i) :
    DrawsProp flt M a' S := by
  obtain ⟨h1, o, h2, h3⟩ := h
  refine ⟨h1, o, h2, fun b hb => ?_⟩
  obtain ⟨k1, k2, k3⟩ := h3 b hb
  exact ⟨k1, k2, fun i j hi => by rw [k3 i j hi, e i hi]⟩

section
variable {table : String → ℝ → ℝ} {q : PropGeom} {cg : V3} {units : Option String} {pts : Option (ι → V3)} {M : PropM ι}

/-- **C78 fails.** In every file the chords of every propeller make the angles (geometric pitch `theta` plus increment minus twice the
zero-lift angle) with the plane of rotation. -/
theorem C78_drawn_angle (h : mkPropM table q cg units pts = .ok M) {theta : ℕ → ℝ}
    (hth : ∀ i, i < q.nodes → ChordPitch table q (stationAt q i) (M.stn i).r (theta i) ∧ 0 < stationAt q i ∧
      Real.cos (M.stn i).af.aL0 ≠ 0 ∧ Real.cos (theta i) ≠ 0 ∧ |theta i - (M.stn i).af.aL0| < Real.pi / 2)
    {props : List (PropM ι)} {mesh : List Facet} (hf : StlFile flt props mesh) (hp : ∀ M ∈ props, Constructed M) (hM : M ∈ props) :
    ∃ (pre post : List Facet) (S : List Surf),
      DrawsProp flt M (fun i => theta i + rad (q.pitch.increment.getD 0) - 2 * (M.stn i).af.aL0) S ∧
      mesh = pre ++ S.flatMap Surf.facets ++ post := by
  obtain ⟨pre, post, S, h1, h2⟩ := prop_in_file hf hp hM
  refine ⟨pre, post, S, h1.congr fun i hi => ?_, h2⟩
  rw [(mkPropM_ok h).2.2.1] at hi
  obtain ⟨k1, k2, k3, k4, k5⟩ := hth i hi
  rw [← zetaAt_eq] at k1 k2
  obtain ⟨k6, k7⟩ := abs_lt.1 k5
  unfold drawnAngle
  rw [C70_aero_pitch h hi k1 k2 k3 k4 k6 k7]
  ring

/-- **C78, the part that holds.** Propellers of which all zero-lift angles are 0 are drawn at their geometric pitch. -/
theorem C78_symmetric_partial (h : mkPropM table q cg units pts = .ok M) {theta : ℕ → ℝ}
    (hth : ∀ i, i < q.nodes → ChordPitch table q (stationAt q i) (M.stn i).r (theta i) ∧ 0 < stationAt q i ∧
      (M.stn i).af.aL0 = 0 ∧ |theta i| < Real.pi / 2)
    {props : List (PropM ι)} {mesh : List Facet} (hf : StlFile flt props mesh) (hp : ∀ M ∈ props, Constructed M) (hM : M ∈ props) :
    ∃ (pre post : List Facet) (S : List Surf), DrawsProp flt M (fun i => theta i + rad (q.pitch.increment.getD 0)) S ∧
      mesh = pre ++ S.flatMap Surf.facets ++ post := by
  obtain ⟨pre, post, S, h1, h2⟩ := C78_drawn_angle h (theta := theta) (fun i hi => by
    obtain ⟨k1, k2, k3, k4⟩ := hth i hi
    refine ⟨k1, k2, by rw [k3, Real.cos_zero]; exact one_ne_zero, ?_, by rw [k3, sub_zero]; exact k4⟩
    exact (Real.cos_pos_of_mem_Ioo (abs_lt.1 k4)).ne') hf hp hM
  refine ⟨pre, post, S, h1.congr fun i hi => ?_, h2⟩
  rw [(mkPropM_ok h).2.2.1] at hi
  simp only [(hth i hi).2.2.1, mul_zero, sub_zero]

end

/-- the propeller of the examples with a cambered airfoil -/
noncomputable def camberedProp : PropGeom := { demoProp with airfoils := [("cam", { demoFoil with al0 := -0.05 })] }

theorem tan_small {x : ℝ} (h0 : 0 ≤ x) (h1 : x ≤ 0.1) : Real.tan x < 1 := by
  have := Real.pi_gt_d2
  norm_num at this h1
  rw [← Real.tan_pi_div_four]
  exact Real.tan_lt_tan_of_lt_of_lt_pi_div_two (by linarith) (by linarith) (by linarith)

theorem cambered_ok (table : String → ℝ → ℝ) (cg : V3) (units : Option String) (pts : Option (ι → V3)) :
    ∃ M : PropM ι, mkPropM table camberedProp cg units pts = .ok M ∧ (M.stn 0).af.aL0 = -0.05 ∧ (M.stn 0).r = 0.5 ∧
      0 < (M.stn 0).cb ∧ M.rot = 1 := by
  have haf : bladeAf camberedProp = .ok fun _ => ({ demoFoil with al0 := -0.05 } : Airfoil).blade := rfl
  have z0 : zetaAt camberedProp 0 = 0.5 := demo_zeta0
  have z1 : zetaAt camberedProp 1 = 0.999 := demo_zeta1
  have hz : ∀ i, i < 2 → (zetaAt camberedProp i = 0.5 ∨ zetaAt camberedProp i = 0.999) := by
    intro i hi
    obtain rfl | rfl : i = 0 ∨ i = 1 := by omega
    · exact .inl z0
    · exact .inr z1
  have hpi := Real.pi_gt_d2
  norm_num at hpi
  have hcos : ∀ x : ℝ, |x| < 1.5 → Real.cos x ≠ 0 := by
    intro x hx
    rw [abs_lt] at hx
    refine (Real.cos_pos_of_mem_Ioo ⟨?_, ?_⟩).ne' <;> norm_num at hx ⊢ <;> linarith
  have ht := tan_small (x := 0.05) (by norm_num) (by norm_num)
  have hnode : ∀ i, i < 2 → ∃ beta cb s,
      bladePitch table camberedProp (zetaAt camberedProp i) (zetaAt camberedProp i * camberedProp.diameter * 0.5) (-0.05) = .ok (some beta) ∧
      bladeChord table camberedProp (zetaAt camberedProp i) = .ok (some cb) ∧ 0 < cb ∧
      mkStn camberedProp (zetaAt camberedProp i) (zetaAt camberedProp i * camberedProp.diameter * 0.5)
        ({ demoFoil with al0 := -0.05 } : Airfoil).blade beta cb = some s := by
    intro i hi
    have hzi := hz i hi
    have hpos : 0.5 ≤ zetaAt camberedProp i := by rcases hzi with h | h <;> rw [h]; norm_num
    norm_num at hpos
    have hr : zetaAt camberedProp i * camberedProp.diameter * 0.5 = zetaAt camberedProp i := by
      simp only [camberedProp, demoProp]; ring
    rw [hr]
    have hcb : (0.07585 + (zetaAt camberedProp i - 0.5) * ((0.1515483 - 0.07585) / 0.499) : ℝ) = 0.1517 * zetaAt camberedProp i := by
      rcases hzi with h | h <;> rw [h] <;> norm_num
    have hp : ∃ beta, bladePitch table camberedProp (zetaAt camberedProp i) (zetaAt camberedProp i) (-0.05) = .ok (some beta) := by
      unfold bladePitch
      simp only [camberedProp, demoProp, getKey, bind, Except.bind, pure, Except.pure]
      unfold aeroPitch
      simp only
      have hne : ¬ (Real.cos (-0.05) = 0 ∨ Real.pi * zetaAt camberedProp i + 1 * Real.tan (-0.05) = 0) := by
        push Not
        refine ⟨hcos _ (by norm_num [abs_lt]), ?_⟩
        rw [Real.tan_neg]
        nlinarith
      simp only [camberedProp, demoProp] at hne
      rw [if_neg hne]
      exact ⟨_, rfl⟩
    obtain ⟨beta, hp⟩ := hp
    refine ⟨beta, 0.1517 * zetaAt camberedProp i, ?_⟩
    have hc : bladeChord table camberedProp (zetaAt camberedProp i) = .ok (some (0.1517 * zetaAt camberedProp i)) := by
      rw [← hcb]; exact demo_chord table _
    have hst : ∃ s, mkStn camberedProp (zetaAt camberedProp i) (zetaAt camberedProp i) ({ demoFoil with al0 := -0.05 } : Airfoil).blade
        beta (0.1517 * zetaAt camberedProp i) = some s := by
      have hcr : 0.1517 * zetaAt camberedProp i / zetaAt camberedProp i = 0.1517 := by
        rw [mul_div_assoc, div_self (by linarith), mul_one]
      have hsep : (0.1517 / (0.1517 * zetaAt camberedProp i / zetaAt camberedProp i)) ^ (1 / 1.084 : ℝ) *
          (0.1517 * zetaAt camberedProp i / zetaAt camberedProp i) / 0.136 = 0.1517 / 0.136 := by
        rw [hcr, div_self (by norm_num), Real.one_rpow, one_mul]
      unfold mkStn
      simp only [hsep, demoFoil, Airfoil.blade]
      rw [if_pos]
      · exact ⟨_, rfl⟩
      · refine ⟨by linarith, by linarith, by norm_num, by rw [hcr]; norm_num, hcos _ ?_, hcos _ ?_, hcos _ ?_,
          hcos _ ?_⟩ <;> norm_num [abs_lt]
    obtain ⟨s, hst⟩ := hst
    exact ⟨s, hp, hc, by nlinarith, hst⟩
  obtain ⟨M, hM⟩ := mkPropM_of (ι := ι) (table := table) cg units pts (q := camberedProp) (mo := none)
    (by norm_num [camberedProp, demoProp])
    (by norm_num [camberedProp, demoProp]) haf (by simp [calcMotor, camberedProp, demoProp]) (fun i hi => by
      obtain ⟨b, c, s, h1, h2, -, h3⟩ := hnode i hi
      exact ⟨b, c, s, h1, h2, h3⟩)
  obtain ⟨-, -, hg, -, -, -, -, af, haf', hst⟩ := mkPropM_ok hM
  rw [haf] at haf'
  cases haf'
  obtain ⟨b, c, h1, h2, h3⟩ := hst 0 (by norm_num [camberedProp, demoProp])
  obtain ⟨b', c', s, g1, g2, g3, g4⟩ := hnode 0 (by norm_num)
  rw [g2] at h2; cases h2
  unfold mkStn at h3
  simp only at h3
  split_ifs at h3 with hfin
  simp only [Option.some.injEq] at h3
  refine ⟨M, hM, by rw [← h3]; rfl, ?_, by rw [← h3]; exact g3, ?_⟩
  · rw [← h3]
    change zetaAt camberedProp 0 * 2 * 0.5 = 0.5
    rw [z0]
    norm_num
  · unfold PropM.rot; rw [hg]; simp [PropGeom.rot, camberedProp, demoProp]

theorem drawable_sym : Drawable digitsFlt "sym" := by
  refine ⟨fun h => absurd h (by decide), ?_⟩
  obtain ⟨-, h⟩ := drawable_2412
  exact h

/-- **C78 fails.** The propeller `camberedProp` (zero-lift angle -0.05 rad) is written to a file that does not show its blades at the
pitch its description asks for. -/
theorem C78_refuted (table : String → ℝ → ℝ) (cg : V3) (units : Option String) (pts : Option (ι → V3)) :
    ∃ (M : PropM ι) (mesh : List Facet) (theta : ℕ → ℝ), mkPropM table camberedProp cg units pts = .ok M ∧
      (∀ i, i < 2 → ChordPitch table camberedProp (stationAt camberedProp i) (M.stn i).r (theta i)) ∧
      createStl digitsFlt none [M] = .ok mesh ∧ ¬ ∃ S, DrawsProp digitsFlt M theta S ∧ mesh = S.flatMap Surf.facets := by
  obtain ⟨M, hM, h1, h2, h3, h4⟩ := cambered_ok table cg units pts
  have hgeom : M.geom = camberedProp := (mkPropM_ok hM).2.2.1
  have hcon : Constructed M := ⟨_, _, _, _, _, hM⟩
  have hpi := Real.pi_gt_d2
  norm_num at hpi
  obtain ⟨mesh, hmesh⟩ := C72_props_total (flt := digitsFlt) (props := [M]) (by
    intro N hN
    rw [List.mem_singleton.1 hN]
    refine ⟨hcon, by rw [hgeom]; simp [camberedProp, demoProp], fun _ => drawable_2412, ?_⟩
    rw [hgeom]
    intro a ha
    simp only [camberedProp, List.mem_singleton] at ha
    rw [ha]
    exact drawable_sym)
  refine ⟨M, mesh, fun i => Real.arctan (1 * camberedProp.diameter / (2 * Real.pi * (M.stn i).r)), hM,
    fun i _ => .inr (.inl ⟨1, rfl, rfl, rfl⟩), hmesh, ?_⟩
  rintro ⟨S', hS', hmS'⟩
  obtain ⟨Bs, hB, hmB, -⟩ := C72_props hmesh (by intro N hN; rw [List.mem_singleton.1 hN]; exact hcon)
  obtain ⟨S, t, hS, ht, rfl⟩ := List.forall₂_cons_left_iff.1 hB
  cases ht
  simp only [List.flatten_cons, List.flatten_nil, List.append_nil] at hmB
  -- the first vertices of the two files
  have hfirst : ∀ {angle : ℕ → ℝ} {S : List Surf}, DrawsProp digitsFlt M angle S → ∃ O : ℕ → ℝ × ℝ,
      plotNACA digitsFlt ['2', '4', '1', '2'] = .ok O ∧ (S.flatMap Surf.facets).head?.map Facet.a =
        some (⟨-1, 0, 0⟩ + bladeSection 1 0.5 (M.stn 0).cb (angle 0) (O 0)) := by
    intro angle S hS
    obtain ⟨hl, o, ho, hb⟩ := hS
    rw [hgeom] at hl ho hb
    have hl : S.length = 2 := hl
    obtain ⟨A, B, rfl⟩ := List.length_eq_two.1 hl
    obtain ⟨r1, -, r3⟩ := hb 0 (by simp)
    have hO : ∃ O, plotNACA digitsFlt ['2', '4', '1', '2'] = .ok O ∧ o 0 0 = O 0 := by
      rcases ho 0 0 with ⟨h, -⟩ | ⟨n, a, O, h, k1, k2⟩ | ⟨h, -⟩
      · simp [camberedProp] at h
      · simp only [camberedProp, List.cons.injEq, Prod.mk.injEq, and_true] at h
        rw [← h.2] at k1
        refine ⟨O, k1 drawable_sym.1, k2⟩
      · simp [camberedProp] at h
    obtain ⟨O, hO, hO'⟩ := hO
    refine ⟨O, hO, ?_⟩
    have hP : A.P 0 0 = _ := r3 0 0 (by simp [camberedProp, demoProp])
    rw [hO', h2, h4] at hP
    have e1 : ∀ u, rotX 0 u = u := fun u => by simp [rotX]
    have e2 : ∀ u, rotY 0 u = u := fun u => by simp [rotY]
    have e3 : ∀ u, rotZ 0 u = u := fun u => by simp [rotZ]
    simp only [camberedProp, demoProp, rad, zero_mul, zero_div, Nat.cast_zero, mul_zero, e1, e2, e3] at hP
    rw [← hP]
    have r1 : A.rows = 2 := r1
    simp only [List.flatMap_cons, List.flatMap_nil, List.append_nil]
    unfold Surf.facets halves
    rw [r1]
    cases A.rev <;> rfl
  obtain ⟨O, hO, hf⟩ := hfirst hS
  obtain ⟨O', hO', hf'⟩ := hfirst hS'
  rw [hO] at hO'
  cases hO'
  rw [← hmB] at hf
  rw [← hmS', hf] at hf'
  have heq := add_left_cancel (Option.some.inj hf')
  set theta := Real.arctan (1 * camberedProp.diameter / (2 * Real.pi * (M.stn 0).r)) with hth
  have t0 : 0 < theta := by
    rw [hth, h2]
    apply Real.arctan_pos.2
    simp only [camberedProp, demoProp]
    positivity
  have t1 : theta < 1 := by
    rw [hth, h2]
    refine (arctan_lt_self (by simp only [camberedProp, demoProp]; positivity)).trans ?_
    simp only [camberedProp, demoProp]
    rw [div_lt_one (by positivity)]
    nlinarith
  have hcos : ∀ x : ℝ, |x| < 1.5 → Real.cos x ≠ 0 := by
    intro x hx
    rw [abs_lt] at hx
    refine (Real.cos_pos_of_mem_Ioo ⟨?_, ?_⟩).ne' <;> norm_num at hx ⊢ <;> linarith
  have z0 : zetaAt camberedProp 0 = 0.5 := demo_zeta0
  have ha : drawnAngle M 0 = theta + 0.1 := by
    unfold drawnAngle
    rw [C70_aero_pitch hM (i := 0) (by norm_num [camberedProp, demoProp]) (.inr (.inl ⟨1, rfl, rfl, hth⟩)) (by rw [z0]; norm_num)
      (by rw [h1]; exact hcos _ (by norm_num [abs_lt])) (hcos _ (by rw [abs_lt]; constructor <;> norm_num <;> linarith))
      (by rw [h1]; norm_num; linarith) (by rw [h1]; norm_num; linarith), h1]
    simp only [camberedProp, demoProp, rad, Option.getD_none]
    ring
  rw [ha] at heq
  have hz : (O 0).2 ≠ 0 := by
    have hs0 : outStation 0 = 1 := by simp [outStation]
    obtain ⟨-, hp⟩ := plot_point hO digits_2412
    obtain ⟨-, hp⟩ := hp 0
    rw [hs0] at hp
    have : camberLine 0.02 0.4 1 = 0 := by
      unfold camberLine
      rw [if_neg (by norm_num), if_neg (by norm_num)]
      norm_num
    rw [this, zero_add] at hp
    intro hc
    rw [hc, neg_zero] at hp
    refine absurd hp.symm (mul_ne_zero (mul_ne_zero (outSide_ne 0) (halfThickness_ne (by norm_num) one_pos le_rfl)) ?_)
    exact one_div_ne_zero (Real.sqrt_pos.2 (by positivity)).ne'
  have hx := congrArg V3.x heq
  have hy := congrArg V3.y heq
  simp only [bladeSection, V3.sub_x, V3.sub_y, add_x, add_y, smul_x, smul_y, zero_add, one_mul] at hx hy
  have hc1 : Real.cos 0.1 = 1 := by
    have e1 : Real.cos (0.1 : ℝ) = Real.cos (theta + 0.1) * Real.cos theta + Real.sin (theta + 0.1) * Real.sin theta := by
      rw [← Real.cos_sub]; congr 1; ring
    have e2 := Real.sin_sq_add_cos_sq theta
    have hn : 0 < ((O 0).1 ^ 2 + (O 0).2 ^ 2) * (M.stn 0).cb := by positivity
    have : ((O 0).1 ^ 2 + (O 0).2 ^ 2) * (M.stn 0).cb * Real.cos 0.1 = ((O 0).1 ^ 2 + (O 0).2 ^ 2) * (M.stn 0).cb * 1 := by
      rw [e1]
      linear_combination ((O 0).1 * Real.sin theta - (O 0).2 * Real.cos theta) * hx +
        ((O 0).1 * Real.cos theta + (O 0).2 * Real.sin theta) * hy + ((O 0).1 ^ 2 + (O 0).2 ^ 2) * (M.stn 0).cb * e2
    exact mul_left_cancel₀ hn.ne' this
  rw [Real.cos_eq_one_iff_of_lt_of_lt (by norm_num; linarith) (by norm_num; linarith)] at hc1
  norm_num at hc1


/-! ### Examples -/

/-- The demonstration aircraft (main wing, winglets, fin; 99 sections, NACA 2412) is written; its file has
(39 + 39 + 6 + 6 + 4) · 98 facets. -/
example (c : Bool) : ∃ g mesh, mkGrid demo c = .ok g ∧ createStl (ι := ι) digitsFlt (some (demo.segments, g)) [] = .ok mesh ∧
    mesh.length = 9212 := by
  obtain ⟨g, hg⟩ := demo_grid c
  have hn : ∀ s ∈ demo.segments, 1 ≤ s.n := by
    intro s hs
    rw [demo_segments] at hs
    simp at hs
    rcases hs with rfl | rfl | rfl | rfl | rfl <;> simp [demoMain, demoWinglet, demoFin]
  obtain ⟨mesh, hm⟩ := C72_total (ι := ι) (flt := digitsFlt) (nm := "demo") (ops := demoOps) hg hn (by
    intro s hs
    change s ∈ demo.segments at hs
    rw [demo_segments] at hs
    simp at hs
    rcases hs with rfl | rfl | rfl | rfl | rfl <;> exact ⟨drawable_2412, drawable_2412⟩) (props := []) (by simp)
  refine ⟨g, mesh, hg, hm, ?_⟩
  obtain ⟨Ws, Bs, -, -, -, h⟩ := C72_aircraft (nm := "demo") (ops := demoOps) hg hn (by simp) hm
  have hl : g.data.length = 99 := by rw [(C16_concatenation hg).1]; rfl
  unfold numFaces at h
  simp only [hl, show (built "demo" none demoOps).segments.length = 5 from rfl, nOut, List.map_nil, List.sum_nil] at h
  omega


/-- two half wings, the second with a five-digit NACA airfoil -/
noncomputable def fiveOps : List PlaneOp :=
  [.addWing "a" none "tip" "right" { semispan := some 1, grid := some 3 },
   .addWing "b" none "tip" "right" { semispan := some 2, isMain := some false, grid := some 2 },
   .airfoil 1 "NACA23012" "both" {}]

noncomputable def fiveSeg (nm : String) (b : ℝ) (main : Bool) (n : ℕ) (af : Airfoil) : Seg :=
  { name := "right_" ++ nm, side := .right, parent := .plane, connectAt := "right_tip", isMain := main
    dpos := 0, yoffset := 0, span := b, rootChord := 1, tipChord := 1, sweep := 0, dihedral := 0, mount := 0
    washout := 0, root := af, tip := af, cs := {}, n := n }

theorem five_heap : (built "five" none fiveOps).heap = [.onlyRight (fiveSeg "a" 1 true 3 (Airfoil.default "NACA2412")),
    .onlyRight (fiveSeg "b" 2 false 2 (Airfoil.default "NACA23012"))] := by
  rfl

theorem five_segments : (built "five" none fiveOps).segments = [fiveSeg "a" 1 true 3 (Airfoil.default "NACA2412"),
    fiveSeg "b" 2 false 2 (Airfoil.default "NACA23012")] := by
  rfl

theorem five_wellFormed : WellFormed (built "five" none fiveOps) := by
  have hheap : ∀ (b : ℕ) (w : Wing), (built "five" none fiveOps).heap[b]? = some w →
      ∃ nm x m n af, w = .onlyRight (fiveSeg nm x m n af) := by
    intro b w h
    rw [five_heap] at h
    match b with
    | 0 => simp at h; exact ⟨_, _, _, _, _, h.symm⟩
    | 1 => simp at h; exact ⟨_, _, _, _, _, h.symm⟩
    | b + 2 => simp at h
  constructor
  · intro b w hb s hs a ha
    obtain ⟨nm, x, m, n, af, rfl⟩ := hheap b w hb
    simp [Wing.segments] at hs; subst hs; simp [fiveSeg] at ha
  · intro b w hb s hs
    obtain ⟨nm, x, m, n, af, rfl⟩ := hheap b w hb
    simp [Wing.segments] at hs; subst hs; simp [fiveSeg]
  all_goals
    intro s hs
    rw [five_segments] at hs
    simp at hs
    rcases hs with rfl | rfl <;> simp [fiveSeg] <;> norm_num

theorem five_not : ¬ WellNamed "NACA23012" := by
  intro h
  have := h (.inl (by decide))
  revert this
  decide

/-- the five-digit half wing is drawn as a NACA 2412 -/
example (c : Bool) : ∃ g O S T, mkGrid (built "five" none fiveOps) c = .ok g ∧
    plotNACA digitsFlt ['2', '4', '1', '2'] = .ok O ∧
    DrawsSegment (built "five" none fiveOps) g 1 (fiveSeg "b" 2 false 2 (Airfoil.default "NACA23012")) O O T ∧
    createStl (ι := ι) digitsFlt (some ((built "five" none fiveOps).segments, g)) [] = .ok (S ++ T.facets) := by
  obtain ⟨g, hg⟩ := grid_exists _ _ _ five_wellFormed c
  obtain ⟨L, R, S, T, h1, h2, -, h3, h4⟩ := C75_refuted (ι := ι) (flt := digitsFlt) hg five_segments (by simp [fiveSeg]) (by simp [fiveSeg])
    drawable_2412 drawable_2412 five_not five_not
  have e : ownDigits "NACA2412" = ['2', '4', '1', '2'] := by decide
  change plotNACA digitsFlt (ownDigits "NACA2412") = .ok L at h1
  change plotNACA digitsFlt (ownDigits "NACA2412") = .ok R at h2
  rw [h1] at h2
  cases h2
  exact ⟨g, L, _, T, hg, by rw [← e]; exact h1, h3, h4⟩

/-- the propeller of the examples is written, 2 blades with 2 stations each, and shows its pitch, because its airfoil is symmetric -/
example (table : String → ℝ → ℝ) (cg : V3) (units : Option String) (pts : Option (ι → V3)) :
    ∃ (M : PropM ι) (mesh : List Facet) (S : List Surf), mkPropM table demoProp cg units pts = .ok M ∧
      createStl digitsFlt none [M] = .ok mesh ∧ mesh.length = 196 ∧
      DrawsProp digitsFlt M (fun i => Real.arctan (1 / (Real.pi * (M.stn i).zeta))) S ∧ mesh = S.flatMap Surf.facets := by
  obtain ⟨M, hM, hn, -, hst, -⟩ := demo_ok (ι := ι) table cg units pts
  have hg : M.geom = demoProp := (mkPropM_ok hM).2.2.1
  have hcon : Constructed M := ⟨_, _, _, _, _, hM⟩
  obtain ⟨mesh, hm⟩ := C72_props_total (flt := digitsFlt) (props := [M]) (by
    intro N hN
    rw [List.mem_singleton.1 hN]
    refine ⟨hcon, by rw [hg]; simp [demoProp], fun _ => drawable_2412, ?_⟩
    rw [hg]
    intro a ha
    simp only [demoProp, List.mem_singleton] at ha
    rw [ha]
    exact drawable_sym)
  have hb : M.geom.blades = 2 := by rw [hg]; rfl
  have hnum : numFaces none [M] = 196 := by
    unfold numFaces
    simp [hb, hn, nOut]
  obtain ⟨Bs, hB, hmB, h⟩ := C72_props hm (by intro N hN; rw [List.mem_singleton.1 hN]; exact hcon)
  obtain ⟨S, t, hS, ht, rfl⟩ := List.forall₂_cons_left_iff.1 hB
  cases ht
  simp only [List.flatten_cons, List.flatten_nil, List.append_nil] at hmB
  refine ⟨M, mesh, S, hM, hm, by rw [hnum] at h; omega, hS.congr fun i hi => ?_, hmB⟩
  rw [hg] at hi
  obtain ⟨-, -, -, k4, k5, -⟩ := hst i hi
  unfold drawnAngle
  rw [k4, k5]
  simp [demoFoil, Airfoil.blade]

/-- this propeller meets the hypotheses of `C78_symmetric_partial` -/
example (table : String → ℝ → ℝ) (cg : V3) (units : Option String) (pts : Option (ι → V3)) {M : PropM ι}
    (hM : mkPropM table demoProp cg units pts = .ok M) (i : ℕ) (hi : i < demoProp.nodes) :
    ChordPitch table demoProp (stationAt demoProp i) (M.stn i).r (Real.arctan (1 * demoProp.diameter / (2 * Real.pi * (M.stn i).r))) ∧
      0 < stationAt demoProp i ∧ (M.stn i).af.aL0 = 0 ∧
      |Real.arctan (1 * demoProp.diameter / (2 * Real.pi * (M.stn i).r))| < Real.pi / 2 := by
  obtain ⟨M', hM', hn, -, hst, -⟩ := demo_ok (ι := ι) table cg units pts
  rw [hM] at hM'
  cases hM'
  obtain ⟨k1, -, -, -, k5, -⟩ := hst i hi
  have hz := Constructed.zeta (M := M) ⟨_, _, _, _, _, hM⟩ (i := i) (by rw [hn]; exact hi)
  rw [(mkPropM_ok hM).2.2.1] at hz
  exact ⟨.inr (.inl ⟨1, rfl, rfl, rfl⟩), by rw [← hz]; exact k1, by rw [k5]; rfl,
    abs_lt.2 ⟨Real.neg_pi_div_two_lt_arctan _, Real.arctan_lt_pi_div_two _⟩⟩

end Verif
