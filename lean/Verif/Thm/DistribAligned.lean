import Verif.Thm.DistribFile

/-!
# Captions and numbers of the distribution file stand below each other (C101)
-/

namespace Verif

theorem drop_prefix {a b : List Char} {m : ℕ} (h : a.length = m) : (a ++ b).drop m = b := by
  subst h; exact List.drop_left

theorem take_drop_pieces {α : Type} (f : α → List Char) : ∀ (l : List α) (k : ℕ) (x : α), (∀ y ∈ l, (f y).length = 21) →
    l[k]? = some x → ((l.flatMap f).drop (21 * k)).take 21 = f x
  | [], k, x, _, h => by simp at h
  | y :: t, 0, x, hf, h => by
    obtain rfl : y = x := by simpa using h
    have := hf y (by simp)
    simp [this]
  | y :: t, k + 1, x, hf, h => by
    have hy := hf y (by simp)
    have ih := take_drop_pieces f t k x (fun z hz => hf z (by simp [hz])) (by simpa using h)
    rw [List.flatMap_cons, List.drop_append, hy, List.drop_eq_nil_of_le (by rw [hy]; omega), List.nil_append,
      show 21 * (k + 1) - 21 = 21 * k by omega]
    exact ih

theorem column_row {num : ℝ → List Char} (hn : NumFormat num) (name : String) {values : List ℝ} {k : ℕ} {v : ℝ}
    (h : values[k]? = some v) : column k (rowLine num name values) = ' ' :: num v := by
  unfold column rowLine
  have hp : (padRight 18 (name.toList.take 18)).length = 18 := by
    have : (name.toList.take 18).length ≤ 18 := by simp
    unfold padRight
    rw [List.length_append, List.length_replicate]; omega
  rw [← List.drop_drop, drop_prefix hp]
  exact take_drop_pieces _ _ _ _ (fun x _ => by simp [hn.width]) h

theorem column_caption {captions : List String} (hc : ∀ c ∈ captions, c.toList.length ≤ 21) {k : ℕ} {c : String}
    (h : captions[k]? = some c) : column k ("# ".toList ++ captionLine captions) = padLeft 21 c.toList := by
  unfold column captionLine
  rw [← List.append_assoc, ← List.drop_drop, drop_prefix (by decide)]
  refine take_drop_pieces (fun s : String => padLeft 21 s.toList) _ _ _ (fun x hx => ?_) h
  have := hc x hx
  simp only [padLeft, List.length_append, List.length_replicate]
  omega

theorem captionLine_length {captions : List String} (hc : ∀ c ∈ captions, c.toList.length ≤ 21) :
    ("# ".toList ++ captionLine captions).length = 18 + 21 * captions.length := by
  unfold captionLine
  rw [← List.append_assoc, List.length_append, show ("# ".toList ++ padRight 16 "Name".toList).length = 18 by decide]
  congr 1
  induction captions with
  | nil => rfl
  | cons c t ih =>
    have := hc c (by simp)
    rw [List.flatMap_cons, List.length_append, ih fun x hx => hc x (by simp [hx])]
    simp only [padLeft, List.length_append, List.length_replicate, List.length_cons]
    omega

theorem lookup_zip {β : Type} : ∀ (l : List String) (m : List β) (c : String) (v : β), (l.zip m).lookup c = some v →
    ∃ k : ℕ, l[k]? = some c ∧ m[k]? = some v
  | [], m, c, v, h => by simp at h
  | a :: l, [], c, v, h => by simp at h
  | a :: l, b :: m, c, v, h => by
    simp only [List.zip_cons_cons, List.lookup_cons] at h
    by_cases e : c = a
    · subst e
      simp at h
      exact ⟨0, by simp, by simp [h]⟩
    · have : (c == a) = false := by simpa using e
      rw [this] at h
      obtain ⟨k, h1, h2⟩ := lookup_zip l m c v h
      exact ⟨k + 1, by simpa using h1, by simpa using h2⟩

/-- **C101, the wing table in the file.** Whatever number belongs under a caption stands in the file, printed, in the same columns as
the caption in the line of captions; and the line starts with the name in eighteen columns. -/
theorem C101_wing_aligned {num : ℝ → List Char} (hn : NumFormat num) {t : List WingRow} {j : ℕ} {r : WingRow} (hr : t[j]? = some r)
    {caption : String} {v : ℝ} (h : under caption wingCaptions r.columns = some v) :
    ∃ k head line, (wingLines num t)[1]? = some head ∧ (wingLines num t)[2 + j]? = some line ∧
      column k head = padLeft 21 caption.toList ∧ column k line = ' ' :: num v ∧
      head.length = line.length ∧ line.take 18 = padRight 18 (r.name.toList.take 18) := by
  obtain ⟨k, h1, h2⟩ := lookup_zip _ _ _ _ h
  refine ⟨k, _, rowLine num r.name r.columns, rfl, ?_, column_caption (by decide) h1, column_row hn _ h2, ?_, ?_⟩
  · unfold wingLines
    rw [List.getElem?_append_right (by simp)]
    simp [hr]
  · rw [rowLine_length hn, captionLine_length (by decide)]
    rfl
  · unfold rowLine
    rw [List.take_append_of_le_length, List.take_of_length_le] <;>
    · have : (r.name.toList.take 18).length ≤ 18 := by simp
      unfold padRight
      rw [List.length_append, List.length_replicate]; omega

/-- **C101, the propeller table in the file.** -/
theorem C101_prop_aligned {num : ℝ → List Char} (hn : NumFormat num) {t : List PropRow} {j : ℕ} {r : PropRow} (hr : t[j]? = some r)
    {caption : String} {v : ℝ} (h : under caption propCaptions r.columns = some v) :
    ∃ k head line, (propLines num t)[3]? = some head ∧ (propLines num t)[4 + j]? = some line ∧
      column k head = padLeft 21 caption.toList ∧ column k line = ' ' :: num v ∧
      head.length = line.length ∧ line.take 18 = padRight 18 (r.name.toList.take 18) := by
  obtain ⟨k, h1, h2⟩ := lookup_zip _ _ _ _ h
  refine ⟨k, _, rowLine num r.name r.columns, rfl, ?_, column_caption (by decide) h1, column_row hn _ h2, ?_, ?_⟩
  · unfold propLines
    rw [List.getElem?_append_right (by simp)]
    simp [hr]
  · rw [rowLine_length hn, captionLine_length (by decide)]
    rfl
  · unfold rowLine
    rw [List.take_append_of_le_length, List.take_of_length_le] <;>
    · have : (r.name.toList.take 18).length ≤ 18 := by simp
      unfold padRight
      rw [List.length_append, List.length_replicate]; omega

/-- a row and a caption as the two theorems ask for -/
example : ∃ (r : WingRow) (p : PropRow), [r][0]? = some r ∧ under "SectionCL" wingCaptions r.columns = some 2 ∧
    [p][0]? = some p ∧ under "Vi(Axial)" propCaptions p.columns = some 3 ∧ NumFormat demoNum :=
  ⟨⟨"main", 0, 1, 0, 0, 0, 1, 0, 0, 2, 0, 0, 0, 2⟩, ⟨"prop", 1, 1, 1, 1, 1, 1, 1, 1, 1, 3, 1⟩, rfl,
    by simp [under, wingCaptions, WingRow.columns, List.lookup], rfl,
    by simp [under, propCaptions, PropRow.columns, List.lookup], demoNum_format⟩

end Verif
