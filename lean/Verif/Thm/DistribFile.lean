import Verif.Spec.Distrib
import Mathlib.Tactic

/-!
# The file written by `distributions` (C77, C89, C90)
-/

namespace Verif
open JsonText

/-! ### Buffered writing -/

theorem write_all (cap : ℕ) (f : OutFile) (s : List Char) :
    (f.write cap s).disk ++ (f.write cap s).buf = f.disk ++ f.buf ++ s := by
  unfold OutFile.write
  split_ifs <;> simp

theorem writes_all (cap : ℕ) (ps : List (List Char)) : ∀ f : OutFile,
    (ps.foldl (OutFile.write cap) f).disk ++ (ps.foldl (OutFile.write cap) f).buf = f.disk ++ f.buf ++ ps.flatten := by
  induction ps with
  | nil => intro f; simp
  | cons s t ih => intro f; rw [List.foldl_cons, ih, write_all]; simp

/-- the piece written last is still in the buffer -/
theorem write_last {cap : ℕ} (f : OutFile) {s : List Char} (hs : s.length ≤ cap) : ∃ p, (f.write cap s).buf = p ++ s := by
  unfold OutFile.write
  split_ifs
  · exact ⟨_, rfl⟩
  · exact ⟨[], rfl⟩

theorem writes_last {cap : ℕ} (f : OutFile) (ps : List (List Char)) {s : List Char} (hs : s.length ≤ cap) :
    ∃ p, ((ps ++ [s]).foldl (OutFile.write cap) f).buf = p ++ s := by
  rw [List.foldl_append]
  exact write_last _ hs

/-! ### JSON strings -/

theorem hexVal_digit {k : ℕ} (hk : k < 16) : hexVal (hexDigit k) = some k := by
  have : ∀ k : Fin 16, hexVal (hexDigit k.val) = some k.val := by decide
  exact this ⟨k, hk⟩

theorem hex4 {v : ℕ} (hv : v < 65536) :
    Hex4 [hexDigit (v / 4096 % 16), hexDigit (v / 256 % 16), hexDigit (v / 16 % 16), hexDigit (v % 16)] v :=
  ⟨_, _, _, _, v / 4096 % 16, v / 256 % 16, v / 16 % 16, v % 16, rfl, hexVal_digit (by omega), hexVal_digit (by omega),
    hexVal_digit (by omega), hexVal_digit (by omega), by omega⟩

theorem JsonText.Str.append_char {c : Char} {t s : List Char} (h : Str t s) : Str (escapeChar c ++ t) (c :: s) := by
  unfold escapeChar
  split_ifs with h1 h2 h3 h4 h5 h6 h7 h8 h9
  · subst h1; exact .short (by simp) h
  · subst h2; exact .short (by simp) h
  · subst h3; exact .short (by simp) h
  · subst h4; exact .short (by simp) h
  · subst h5; exact .short (by simp) h
  · subst h6; exact .short (by simp) h
  · subst h7; exact .short (by simp) h
  · exact .plain h2 h1 h8.1 h
  · have e := Str.uni (hex4 h9) (v := c.toNat) c.valid h
    rw [Char.ofNat_toNat] at e
    exact e
  · have hv : c.toNat < 0x110000 := by
      rcases c.valid with h' | h'
      · have : c.toNat < 0xd800 := h'
        omega
      · exact h'.2
    have e := Str.pair (hi := 0xD800 + (c.toNat - 65536) / 1024) (lo := 0xDC00 + (c.toNat - 65536) % 1024) (hex4 (by omega))
      (hex4 (by omega)) (by omega) (by omega) (by omega) (by omega) h
    have e2 : 0x10000 + (0xD800 + (c.toNat - 65536) / 1024 - 0xD800) * 1024 + (0xDC00 + (c.toNat - 65536) % 1024 - 0xDC00) = c.toNat := by
      omega
    rw [e2, Char.ofNat_toNat] at e
    simpa [uEscape] using e

theorem str_escape (s : List Char) : Str (s.flatMap escapeChar) s := by
  induction s with
  | nil => exact .nil
  | cons c t ih => exact ih.append_char

theorem str_data : Str "data".toList "data".toList :=
  .plain (by decide) (by decide) (by decide) (.plain (by decide) (by decide) (by decide) (.plain (by decide) (by decide) (by decide)
    (.plain (by decide) (by decide) (by decide) .nil)))

theorem ws_spaces : Ws "\n    ".toList := by unfold Ws; decide
theorem ws_space : Ws " ".toList := by unfold Ws; decide
theorem ws_nl : Ws "\n".toList := by unfold Ws; decide
theorem ws_nil : Ws [] := by simp [Ws]

theorem jsonData_object (s : List Char) : ObjectOfString (jsonData s) "data".toList s := by
  refine ⟨"\n    ".toList, [], " ".toList, "\n".toList, "data".toList, s.flatMap escapeChar, ?_, ws_spaces, ws_nil, ws_space, ws_nl,
    str_data, str_escape s⟩
  unfold jsonData
  have e1 : "{\n    \"data\": \"".toList = '{' :: ("\n    ".toList ++ '"' :: ("data".toList ++ '"' :: ([] ++ ':' :: (" ".toList ++ ['"'])))) := by decide
  have e2 : "\"\n}".toList = '"' :: ("\n".toList ++ ['}']) := by decide
  rw [e1, e2]
  simp

/-- such an object is a JSON document -/
theorem objectOfString_text {t k s : List Char} (h : ObjectOfString t k s) : IsText t := by
  obtain ⟨w1, w2, w3, w4, k', v, rfl, h1, h2, h3, h4, hk, hv⟩ := h
  have e : Element (w3 ++ ('"' :: (v ++ ['"'])) ++ w4) := .mk h3 (.str hv) h4
  have m := Members.one h1 hk h2 e
  have o := Value.obj m
  have := Element.mk ws_nil o ws_nil
  unfold IsText
  simpa using this

/-- the last character that is not white space -/
def lastInk (t : List Char) : Option Char := t.reverse.find? fun c => !isWs c

theorem lastInk_ws {t w : List Char} (hw : Ws w) : lastInk (t ++ w) = lastInk t := by
  unfold lastInk
  rw [List.reverse_append, List.find?_append]
  have : (w.reverse.find? fun c => !isWs c) = none := by
    rw [List.find?_eq_none]
    intro c hc
    simp [hw c (by simpa using hc)]
  rw [this]; rfl

theorem lastInk_snoc {t : List Char} {c : Char} (hc : isWs c = false) : lastInk (t ++ [c]) = some c := by
  unfold lastInk
  simp [hc]

theorem digit_ne {c d : Char} (h : '0' ≤ c ∧ c ≤ '9') (hd : d < '0' ∨ '9' < d) : c ≠ d := by
  rintro rfl
  rcases hd with h' | h'
  · exact absurd h.1 (Char.not_le.2 h')
  · exact absurd h.2 (Char.not_le.2 h')

theorem value_head {t : List Char} (h : Value t) (hb : t.head? = some '{') : ∃ u, t = '{' :: (u ++ ['}']) := by
  cases h with
  | obj h => exact ⟨_, rfl⟩
  | obj0 h => exact ⟨_, rfl⟩
  | arr h => simp at hb
  | arr0 h => simp at hb
  | str h => simp at hb
  | tru => simp at hb
  | fls => simp at hb
  | nul => simp at hb
  | num h =>
    obtain ⟨s, i, f, e, rfl, hs, hi, -⟩ := h
    rcases hs with rfl | rfl
    · rcases i with _ | ⟨c, i⟩
      · exact absurd rfl hi.1
      · simp only [List.nil_append, List.cons_append, List.head?_cons, Option.some.injEq] at hb
        exact absurd hb (digit_ne (hi.2 c (by simp)) (by decide))
    · simp at hb

/-- a document that starts with `{` ends with `}` -/
theorem doc_brace {t : List Char} (h : IsText t) (hb : t.head? = some '{') : lastInk t = some '}' := by
  cases h with
  | @mk w t w' hw hv hw' =>
    rcases w with _ | ⟨c, w⟩
    · rcases t with _ | ⟨c, t⟩
      · exfalso
        have := hw' '{' (by
          rw [List.nil_append, List.nil_append] at hb
          exact List.mem_of_mem_head? hb)
        exact absurd this (by decide)
      · obtain ⟨u, hu⟩ := value_head hv (by simpa using hb)
        rw [lastInk_ws hw', hu, List.nil_append, ← List.cons_append]
        exact lastInk_snoc (by decide)
    · simp only [List.cons_append, List.head?_cons, Option.some.injEq] at hb
      subst hb
      exact absurd (hw '{' (by simp)) (by decide)

/-! ### Lines -/

variable {num : ℝ → List Char}

theorem header_wing : headerText wingHeader = endLines ['\n'] ["# WingDistributions ".toList, "# ".toList ++ captionLine wingCaptions] := by
  decide +kernel

theorem header_prop : headerText propHeader =
    endLines ['\n'] ["# ".toList, "# ".toList, "# PropellerDistributions ".toList, "# ".toList ++ captionLine propCaptions] := by
  decide +kernel

theorem rowText_eq (name : String) (cols : List ℝ) : rowText num name cols = rowLine num name cols ++ ['\n'] := rfl

theorem wingPieces_flatten (t : List WingRow) : (wingPieces num t).flatten = endLines ['\n'] (wingLines num t) := by
  unfold wingPieces wingLines
  rw [List.flatten_cons, header_wing]
  unfold endLines
  rw [List.flatMap_append, List.flatMap_map]
  rfl

theorem propPieces_flatten (t : List PropRow) : (propPieces num t).flatten = endLines ['\n'] (propLines num t) := by
  unfold propPieces propLines
  rw [List.flatten_cons, header_prop]
  unfold endLines
  rw [List.flatMap_append, List.flatMap_map]
  rfl

theorem replace_append (a b : List Char) : replaceNewlines (a ++ b) = replaceNewlines a ++ replaceNewlines b := by
  unfold replaceNewlines; simp

theorem replace_none {l : List Char} (h : '\n' ∉ l) : replaceNewlines l = l := by
  induction l with
  | nil => rfl
  | cons c t ih =>
    have hc : c ≠ '\n' := fun e => h (by simp [e])
    have ht := ih fun hm => h (by simp [hm])
    show (if c = '\n' then _ else [c]) ++ replaceNewlines t = _
    rw [if_neg hc, ht]; rfl

theorem replace_endLines {ls : List (List Char)} (h : ∀ l ∈ ls, '\n' ∉ l) :
    replaceNewlines (endLines ['\n'] ls) = endLines "newline".toList ls := by
  induction ls with
  | nil => rfl
  | cons l t ih =>
    show replaceNewlines ((l ++ ['\n']) ++ endLines ['\n'] t) = (l ++ "newline".toList) ++ endLines "newline".toList t
    rw [replace_append, replace_append, ih fun l hl => h l (by simp [hl]), replace_none (h l (by simp))]
    rfl

theorem rowLine_oneLine (hn : NumFormat num) {name : String} (h : OneLine name) (cols : List ℝ) : '\n' ∉ rowLine num name cols := by
  unfold rowLine padRight
  simp only [List.mem_append, List.mem_flatMap, List.mem_cons, not_or, not_exists, not_and]
  refine ⟨⟨fun hm => h (List.mem_of_mem_take hm), ?_⟩, fun x _ => ⟨by decide, hn.oneLine x⟩⟩
  intro hm
  exact absurd (List.eq_of_mem_replicate hm) (by decide)

theorem wing_captions_oneLine : ∀ l ∈ ["# WingDistributions ".toList, "# ".toList ++ captionLine wingCaptions], '\n' ∉ l := by
  decide +kernel

theorem wingLines_oneLine (hn : NumFormat num) {t : List WingRow} (h : ∀ r ∈ t, OneLine r.name) : ∀ l ∈ wingLines num t, '\n' ∉ l := by
  intro l hl
  unfold wingLines at hl
  rw [List.mem_append] at hl
  rcases hl with hl | hl
  · exact wing_captions_oneLine l hl
  · obtain ⟨r, hr, rfl⟩ := List.mem_map.1 hl
    exact rowLine_oneLine hn (h r hr) _

theorem rowLine_length (hn : NumFormat num) (name : String) (cols : List ℝ) : (rowLine num name cols).length = 18 + 21 * cols.length := by
  unfold rowLine padRight
  rw [List.length_append, List.length_append, List.length_replicate]
  have h1 : (name.toList.take 18).length ≤ 18 := by simp
  have h2 : (cols.flatMap fun x => ' ' :: num x).length = 21 * cols.length := by
    induction cols with
    | nil => rfl
    | cons x t ih => simp only [List.flatMap_cons, List.length_append, List.length_cons, hn.width, ih]; ring
  omega

theorem asksJson_iff {filename : String} (h : AsksJson filename) :
    filename.toList ≠ [] ∧ filename.toList.drop (filename.length - 4) = "json".toList := by
  obtain ⟨p, hp⟩ := h
  have hl : filename.length = p.length + 4 := by
    rw [← String.length_toList, hp, List.length_append]; rfl
  refine ⟨by rw [hp]; simp, ?_⟩
  rw [hp, hl, Nat.add_sub_cancel]
  simp

theorem not_asksJson {filename : String} (h : ¬ AsksJson filename) : filename.toList.drop (filename.length - 4) ≠ "json".toList := by
  intro hd
  apply h
  exact ⟨filename.toList.take (filename.length - 4), by rw [← hd, List.take_append_drop]⟩

/-! ### The theorems -/

/-- **C77 for text files, C89 for planes with wings.** If the name does not end in `json`, the file contains after the call, whatever
was in it before, the lines of the wing table followed by those of the propeller table, if there is one. -/
theorem C77_text (cap : ℕ) {filename : String} (hf : filename.toList ≠ []) (hj : ¬ AsksJson filename) (old : Option (List Char))
    (t : List WingRow) (pt : Option (List PropRow)) :
    distributionsFile num cap filename old (some t) pt =
      .ok (some (endLines ['\n'] (wingLines num t ++ pt.elim [] (propLines num)))) := by
  unfold distributionsFile
  rw [if_neg hf]
  simp only [if_neg (not_asksJson hj)]
  rcases pt with _ | p
  · simp [afterWings, wingPieces_flatten]
  · simp only [afterWings, Option.getD_some, Option.map_some, Option.elim_some, writes_all, wingPieces_flatten, propPieces_flatten, endLines,
      List.flatMap_append, List.append_nil]

/-- **C77 for JSON files, in part: planes without propellers.** If the name ends in `json`, the file contains after the call, whatever
was in it before, a JSON document: an object whose only key is `data` and whose value consists of the lines of the wing table, each
followed by the word `newline`.  Missing: planes with propellers, for which it fails, see `C77_refuted`. -/
theorem C77_json_partial (hn : NumFormat num) (cap : ℕ) {filename : String} (hj : AsksJson filename) (old : Option (List Char))
    (t : List WingRow) (ht : ∀ r ∈ t, OneLine r.name) :
    ∃ doc, distributionsFile num cap filename old (some t) none = .ok (some doc) ∧ IsText doc ∧
      ObjectOfString doc "data".toList (endLines "newline".toList (wingLines num t)) := by
  obtain ⟨h1, h2⟩ := asksJson_iff hj
  refine ⟨jsonData (endLines "newline".toList (wingLines num t)), ?_, objectOfString_text (jsonData_object _), jsonData_object _⟩
  unfold distributionsFile
  rw [if_neg h1]
  simp only [if_pos h2, afterWings, Option.map_some, wingPieces_flatten, List.append_nil, replace_endLines (wingLines_oneLine hn ht)]

/-- **C77 fails** for JSON files of every plane with a propeller, with or without wings, whatever was in the file: the last
line of the propeller table follows after the JSON text, so that the file is no JSON document.  The buffer must have room for a line
of the propeller table (250 bytes). -/
theorem C77_refuted (hn : NumFormat num) {cap : ℕ} (hc : 250 ≤ cap) {filename : String} (hj : AsksJson filename)
    (old : Option (List Char)) (wt : Option (List WingRow)) (t : List PropRow) (r : PropRow) :
    ∃ file doc rest, distributionsFile num cap filename old wt (some (t ++ [r])) = .ok (some file) ∧ IsText doc ∧
      file = doc ++ rest ++ rowLine num r.name r.columns ++ ['\n'] ∧ ¬ IsText file := by
  obtain ⟨h1, h2⟩ := asksJson_iff hj
  let f : OutFile := (propPieces num (t ++ [r])).foldl (OutFile.write cap) ⟨(afterWings num old wt).getD [], []⟩
  have hl : (rowText num r.name r.columns).length ≤ cap := by
    rw [rowText_eq, List.length_append, rowLine_length hn]
    have : r.columns.length = 11 := rfl
    rw [this]
    simp only [List.length_cons, List.length_nil]
    omega
  have hp : propPieces num (t ++ [r]) = (headerText propHeader :: t.map fun r => rowText num r.name r.columns) ++ [rowText num r.name r.columns] := by
    unfold propPieces; simp
  obtain ⟨p, hb⟩ : ∃ p, f.buf = p ++ rowText num r.name r.columns := by
    show ∃ p, ((propPieces num (t ++ [r])).foldl (OutFile.write cap) ⟨(afterWings num old wt).getD [], []⟩).buf = _
    rw [hp]
    exact writes_last _ _ hl
  refine ⟨jsonData (replaceNewlines f.disk) ++ f.buf, jsonData (replaceNewlines f.disk), p, ?_, objectOfString_text (jsonData_object _), ?_, ?_⟩
  · unfold distributionsFile
    rw [if_neg h1]
    simp only [if_pos h2]
    rfl
  · rw [hb, rowText_eq]; simp
  · intro h
    have h3 := doc_brace h (by
      have : (jsonData (replaceNewlines f.disk)).head? = some '{' := by
        unfold jsonData
        rw [show "{\n    \"data\": \"".toList = '{' :: "\n    \"data\": \"".toList by decide]
        rfl
      rw [List.head?_append, this]; rfl)
    obtain ⟨q, c, hq, hc1, hc2⟩ := hn.digit r.Vt
    have e : ∃ z, jsonData (replaceNewlines f.disk) ++ f.buf = (z ++ [c]) ++ ['\n'] := by
      rw [hb, rowText_eq]
      have : rowLine num r.name r.columns = (padRight 18 (r.name.toList.take 18) ++
          ([r.r, r.chord, r.pitch, r.advance, r.induced, r.alpha, r.CL, r.CD, r.Vi, r.Vx].flatMap fun x => ' ' :: num x) ++ ' ' :: q) ++ [c] := by
        unfold rowLine PropRow.columns
        simp [List.flatMap_cons, hq]
      rw [this]
      generalize (padRight 18 _ ++ _ ++ ' ' :: q : List Char) = z
      exact ⟨jsonData (replaceNewlines f.disk) ++ p ++ z, by simp only [List.append_assoc]⟩
    obtain ⟨z, e⟩ := e
    have hw : isWs c = false := by
      unfold isWs
      have a1 : c ≠ ' ' := digit_ne ⟨hc1, hc2⟩ (by decide)
      have a2 : c ≠ '\n' := digit_ne ⟨hc1, hc2⟩ (by decide)
      have a3 : c ≠ '\r' := digit_ne ⟨hc1, hc2⟩ (by decide)
      have a4 : c ≠ '\t' := digit_ne ⟨hc1, hc2⟩ (by decide)
      simp [a1, a2, a3, a4]
    rw [e, lastInk_ws (show Ws ['\n'] from ws_nl), lastInk_snoc hw, Option.some.injEq] at h3
    exact absurd h3 (digit_ne ⟨hc1, hc2⟩ (by decide))

/-- **C89 fails** for planes without wings: what was in the file stays there, before the new table. -/
theorem C89_refuted (cap : ℕ) {filename : String} (hf : filename.toList ≠ []) (hj : ¬ AsksJson filename) (old : List Char)
    (t : List PropRow) :
    distributionsFile num cap filename (some old) none (some t) = .ok (some (old ++ endLines ['\n'] (propLines num t))) := by
  unfold distributionsFile
  rw [if_neg hf]
  simp only [if_neg (not_asksJson hj), afterWings, Option.map_some, Option.getD_some, writes_all, propPieces_flatten, List.append_nil]

/-- the format of the examples: every number is printed as a zero -/
def demoNum (_ : ℝ) : List Char := "  0.000000000000e+00".toList

theorem demoNum_format : NumFormat demoNum :=
  ⟨fun _ => by show "  0.000000000000e+00".toList.length = 20; decide, fun _ => by show '\n' ∉ "  0.000000000000e+00".toList; decide,
    fun _ => ⟨"  0.000000000000e+0".toList, '0', by show "  0.000000000000e+00".toList = _; decide, by decide, by decide⟩⟩

/-- C77: the hypotheses are met -/
example : NumFormat demoNum ∧ AsksJson "dist.json" ∧ ¬ AsksJson "dist.txt" ∧ "dist.txt".toList ≠ [] ∧ OneLine "right_main" := by
  refine ⟨demoNum_format, ⟨"dist.".toList, by decide⟩, ?_, by decide, by unfold OneLine; decide⟩
  rintro ⟨p, hp⟩
  have := congrArg List.reverse hp
  rw [List.reverse_append, show "dist.txt".toList.reverse = ['t', 'x', 't', '.', 't', 's', 'i', 'd'] by decide,
    show "json".toList.reverse = ['n', 'o', 's', 'j'] by decide] at this
  simp at this

/-! ### C90: names -/

/-- a name that fits into the column and does not end with a space -/
def ShortName (s : String) : Prop := s.length ≤ 18 ∧ s.toList.getLast? ≠ some ' '

theorem stripped_eq {a b : List Char} (ha : a.getLast? ≠ some ' ') (hb : b.getLast? ≠ some ' ') {m k : ℕ}
    (h : a ++ List.replicate m ' ' = b ++ List.replicate k ' ') : a = b := by
  have key : ∀ (x : List Char), x.getLast? ≠ some ' ' → ∀ j, (x ++ List.replicate j ' ').reverse.dropWhile (· = ' ') = x.reverse := by
    intro x hx j
    rw [List.reverse_append, List.reverse_replicate]
    induction j with
    | zero =>
      rw [List.replicate_zero, List.nil_append]
      rcases hr : x.reverse with _ | ⟨c, t⟩
      · rfl
      · have : x.getLast? = some c := by
          rw [← List.head?_reverse, hr]; rfl
        rw [this] at hx
        rw [List.dropWhile_cons_of_neg (by simpa using hx)]
    | succ j ih =>
      rw [List.replicate_succ, List.cons_append, List.dropWhile_cons_of_pos (by simp)]
      exact ih
  have := key a ha m
  rw [h, key b hb k] at this
  exact List.reverse_injective this.symm

/-- **C90 in part.** Lines of the tables with different names are different, if the names have at most eighteen characters and do not
end with a space. -/
theorem C90_partial {a b : String} (ha : ShortName a) (hb : ShortName b) {ca cb : List ℝ}
    (h : rowText num a ca = rowText num b cb) : a = b := by
  have la : a.toList.take 18 = a.toList := List.take_of_length_le (by rw [String.length_toList]; exact ha.1)
  have lb : b.toList.take 18 = b.toList := List.take_of_length_le (by rw [String.length_toList]; exact hb.1)
  have hl : ∀ s : String, ShortName s → (padRight 18 (s.toList.take 18)).length = 18 := by
    intro s hs
    unfold padRight
    have : (s.toList.take 18).length ≤ 18 := by simp
    simp only [List.length_append, List.length_replicate]
    omega
  unfold rowText at h
  rw [List.append_assoc, List.append_assoc] at h
  have h1 := List.append_inj_left h (by rw [hl a ha, hl b hb])
  rw [la, lb] at h1
  exact String.toList_injective (stripped_eq ha.2 hb.2 h1)

/-- **C90 fails**: the right halves of two wings with different names can have the same name in the table, so that nothing but
the numbers tells their lines apart. -/
theorem C90_refuted : ∃ a b : String, a ≠ b ∧ ∀ (d : WingDims) (wa wb : Wing),
    mkWing a "right" d = .ok wa → mkWing b "right" d = .ok wb → ∀ sa ∈ wa.segments, ∀ sb ∈ wb.segments, sa.name ≠ sb.name ∧
      ∀ (num : ℝ → List Char) (cols : List ℝ), rowText num sa.name cols = rowText num sb.name cols := by
  refine ⟨"horizontal_stab_in", "horizontal_stab_out", by decide, fun d wa wb ha hb sa hsa sb hsb => ?_⟩
  unfold mkWing at ha hb
  rw [if_neg (by decide), if_pos rfl] at ha hb
  cases ha; cases hb
  have na : sa.name = "right_horizontal_stab_in" := by
    simp only [Wing.segments, List.mem_singleton] at hsa
    rw [hsa]; rfl
  have nb : sb.name = "right_horizontal_stab_out" := by
    simp only [Wing.segments, List.mem_singleton] at hsb
    rw [hsb]; rfl
  rw [na, nb]
  refine ⟨by decide, fun num cols => ?_⟩
  unfold rowText
  have : ("right_horizontal_stab_in".toList.take 18) = ("right_horizontal_stab_out".toList.take 18) := by decide
  rw [this]

/-- C90: such names exist -/
example : ShortName "right_main" ∧ ShortName "left_main" := by
  constructor <;> exact ⟨by decide, by decide⟩

end Verif
