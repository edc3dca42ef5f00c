import Verif.Spec.Stl
import Verif.Lemmas.Grid

/-!
# Lemmas about the mesh writes
-/

namespace Verif
open V3

/-- the triangles `tri` for every two neighbouring outlines and every two neighbouring points -/
def triangles (tri : (ℕ → ℕ → V3) → ℕ → ℕ → List Facet) (P : ℕ → ℕ → V3) (rows : ℕ) : List Facet :=
  (List.range (rows - 1)).flatMap fun i => (List.range 49).flatMap fun j => tri P i j

theorem Surf.facets_eq (s : Surf) : s.facets = triangles (if s.rev then panelRev else panel) s.P s.rows := by
  unfold Surf.facets triangles halves
  cases s.rev <;> rfl

theorem writeFacet_at (pre : List Facet) (x f : Facet) (post : List Facet) {k : ℤ} (hk : k = pre.length) :
    writeFacet (pre ++ x :: post) k f = .ok (pre ++ f :: post) := by
  unfold writeFacet
  subst hk
  rw [if_pos (by simp)]
  simp

theorem writePanel_at (fs : List Facet) : ∀ (pre x post : List Facet) {k : ℤ}, k = pre.length → x.length = fs.length →
    writePanel (pre ++ x ++ post) k fs = .ok (pre ++ fs ++ post) := by
  induction fs with
  | nil => intro pre x post k _ hx; simp at hx; subst hx; rfl
  | cons f t ih =>
    intro pre x post k hk hx
    obtain _ | ⟨x0, x⟩ := x
    · simp at hx
    unfold writePanel
    rw [show pre ++ x0 :: x ++ post = pre ++ x0 :: (x ++ post) by simp, writeFacet_at pre x0 f _ hk]
    simp only [bind, Except.bind]
    have := ih (pre ++ [f]) x post (k := k + 1) (by simp [hk]) (by simpa using hx)
    simpa using this

/-- a loop that fills consecutive blocks of `c` facets -/
theorem fold_blocks {c m : ℕ} {blk : ℕ → List Facet} {step : List Facet → ℕ → Except PyErr (List Facet)} {base : ℤ}
    (hb : ∀ i, (blk i).length = c)
    (hstep : ∀ (i : ℕ) pre x post, x.length = c → (pre.length : ℤ) = base + c * i → step (pre ++ x ++ post) i = .ok (pre ++ blk i ++ post)) :
    ∀ pre x post, x.length = m * c → (pre.length : ℤ) = base →
      (List.range m).foldlM step (pre ++ x ++ post) = .ok (pre ++ (List.range m).flatMap blk ++ post) := by
  have hlen : ∀ m, ((List.range m).flatMap blk).length = m * c := by
    intro m
    induction m with
    | zero => simp
    | succ m ih => rw [List.range_succ, List.flatMap_append, List.length_append, ih]; simp [hb]; ring
  induction m with
  | zero =>
    intro pre x post hx _
    have : x = [] := by simpa using hx
    subst this; rfl
  | succ m ih =>
    intro pre x post hx hp
    have hx' : x.length = m * c + c := by rw [hx]; ring
    rw [List.range_succ, List.foldlM_append]
    have e : pre ++ x ++ post = pre ++ x.take (m * c) ++ (x.drop (m * c) ++ post) := by
      rw [List.append_assoc, List.append_assoc, ← List.append_assoc (x.take _), List.take_append_drop]
    rw [e, ih pre (x.take (m * c)) _ (by simp [hx']) hp]
    simp only [bind, Except.bind, List.foldlM_cons, List.foldlM_nil, pure, Except.pure]
    have h2 := hstep m (pre ++ (List.range m).flatMap blk) (x.drop (m * c)) post (by simp [hx'])
      (by rw [List.length_append, hlen, Nat.cast_add, hp]; push_cast; ring)
    rw [List.append_assoc (pre ++ _)] at h2
    rw [h2]
    simp

theorem panel_length (P : ℕ → ℕ → V3) (i j : ℕ) : (panel P i j).length = 2 := rfl
theorem panelRev_length (P : ℕ → ℕ → V3) (i j : ℕ) : (panelRev P i j).length = 2 := rfl

theorem triangles_length {tri : (ℕ → ℕ → V3) → ℕ → ℕ → List Facet} (h : ∀ P i j, (tri P i j).length = 2) (P : ℕ → ℕ → V3)
    (rows : ℕ) : (triangles tri P rows).length = (rows - 1) * 98 := by
  unfold triangles
  rw [List.length_flatMap]
  simp [List.length_flatMap, h]

/-- the loops of one surface write its triangles, in order, to consecutive places -/
theorem writeSurface_at {tri : (ℕ → ℕ → V3) → ℕ → ℕ → List Facet} (h : ∀ P i j, (tri P i j).length = 2) (P : ℕ → ℕ → V3)
    (rows : ℕ) {base : ℤ} (pre x post : List Facet) (hx : x.length = (rows - 1) * 98) (hp : (pre.length : ℤ) = base) :
    writeSurface tri P rows base (pre ++ x ++ post) = .ok (pre ++ triangles tri P rows ++ post) := by
  unfold writeSurface triangles
  refine fold_blocks (c := 98) (base := base) (fun i => ?_) (fun i pre x post hx hp => ?_) pre x post hx hp
  · simp [List.length_flatMap, h]
  · have e : nOut - 1 = 49 := rfl
    rw [e]
    refine fold_blocks (c := 2) (base := base + 98 * i) (fun j => h P i j) (fun j pre x post hx hp => ?_) pre x post (by simp [hx]) (by rw [hp]; push_cast; ring)
    refine writePanel_at _ _ _ _ ?_ (by rw [hx, h])
    rw [hp]
    simp [nOut]

theorem nacaDigits_own {name : String} (h : WellNamed name) (prev : Option (List Char)) :
    nacaDigits name prev = some (ownDigits name) := by
  unfold nacaDigits ownDigits
  unfold WellNamed at h
  simp only
  by_cases hc : name.toList.take 4 = "NACA".toList ∨ name.toList.take 4 = "naca".toList
  · rw [if_pos hc]
    have hc' : name.toList.take 4 = ['N', 'A', 'C', 'A'] ∨ name.toList.take 4 = ['n', 'a', 'c', 'a'] := hc
    rw [if_pos hc', if_pos (h hc)]
  · rw [if_neg hc]
    have hc' : ¬ (name.toList.take 4 = ['N', 'A', 'C', 'A'] ∨ name.toList.take 4 = ['n', 'a', 'c', 'a']) := hc
    rw [if_neg hc']
    rfl

end Verif
