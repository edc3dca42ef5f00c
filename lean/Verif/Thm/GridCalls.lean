import Verif.Thm.WingConnect
import Verif.Thm.GridExists

/-!
# C82: every aircraft described by well-formed calls has a grid
-/

namespace Verif
open V3

private theorem last_split {α : Type*} (P : α → Prop) (l : List α) :
    (∀ x ∈ l, ¬ P x) ∨ ∃ a x b, l = a ++ x :: b ∧ P x ∧ ∀ y ∈ b, ¬ P y := by
  classical
  induction l using List.reverseRecOn with
  | nil => left; simp
  | append_singleton l x ih =>
    by_cases hx : P x
    · exact .inr ⟨l, x, [], rfl, hx, by simp⟩
    · rcases ih with h | ⟨a, y, b, rfl, hy, hb⟩
      · left
        intro z hz
        rcases List.mem_append.1 hz with hz | hz
        · exact h z hz
        · rw [List.mem_singleton.1 hz]; exact hx
      · refine .inr ⟨a, y, b ++ [x], by simp, hy, ?_⟩
        intro z hz
        rcases List.mem_append.1 hz with hz | hz
        · exact hb z hz
        · rw [List.mem_singleton.1 hz]; exact hx

private theorem declared_side {name side : String} {n : ℕ} {x : String × Side × ℕ} (hv : ValidSide side)
    (h : x ∈ declaredSegs (name, side, n)) : (side = "both" ∨ side = x.2.1.str) := by
  rcases hv with rfl | rfl | rfl
  · exact .inl rfl
  · simp [declaredSegs] at h; subst h; exact .inr rfl
  · simp [declaredSegs] at h; subst h; exact .inr rfl

private theorem declared_has {name side : String} {n : ℕ} (s : Side) (h : side = "both" ∨ side = s.str) :
    ∃ x ∈ declaredSegs (name, side, n), x.2.1 = s := by
  rcases h with rfl | rfl <;> cases s <;> simp [declaredSegs, Side.str]

theorem wellFormed_of {nm : String} {pos : Option V3} {ops : List PlaneOp} (h : WellFormedCalls ops) :
    WellFormed (built nm pos ops) := by
  have key : ∀ (b : ℕ) (w : Wing), (built nm pos ops).heap[b]? = some w →
      ∃ pre name parent location side d post, ops = pre ++ .addWing name parent location side d :: post ∧
        ValidSide side ∧ b = wingsCreated pre := fun b w hb => created_by (by
    rw [← built_length nm pos ops]; exact (List.getElem?_eq_some_iff.1 hb).1)
  have hsay : ∀ (b : ℕ) (w : Wing), (built nm pos ops).heap[b]? = some w → ∀ s ∈ w.segments,
      ∃ name parent location side d, .addWing name parent location side d ∈ ops ∧ ValidSide side ∧ s.Says d := by
    intro b w hb s hs
    obtain ⟨pre, name, parent, location, side, d, post, rfl, hv, rfl⟩ := key b w hb
    obtain ⟨w', hw', _, hsays⟩ := C92_dimensions nm pos pre post name parent location side d hv
    rw [hb] at hw'
    obtain rfl := Option.some.inj hw'
    exact ⟨name, parent, location, side, d, by simp, hv, hsays s hs⟩
  have ctrl : ∀ (b : ℕ) (w : Wing), (built nm pos ops).heap[b]? = some w → ∀ s ∈ w.segments,
      s.cs.Says {} ∨ ∃ id props, .controlSurface id props ∈ ops ∧ props.Complete ∧ s.cs.Says props := by
    intro b w hb s hs
    obtain ⟨pre, name, parent, location, side, d, post, rfl, hv, rfl⟩ := key b w hb
    rcases last_split (SetsControl (wingsCreated pre)) post with hn | ⟨a, x, c, rfl, ⟨props, rfl, hc⟩, hn⟩
    · left
      obtain ⟨w', hw', hsays⟩ := C92_control_default nm pos pre post name parent location side d hv hn
      rw [hb] at hw'
      obtain rfl := Option.some.inj hw'
      exact hsays s hs
    · right
      refine ⟨wingsCreated pre, props, by simp, hc, ?_⟩
      rw [show pre ++ PlaneOp.addWing name parent location side d :: (a ++ .controlSurface (wingsCreated pre) props :: c) =
        (pre ++ ([.addWing name parent location side d] ++ a)) ++ .controlSurface (wingsCreated pre) props :: c by simp] at hb
      obtain ⟨w', hw', hsays⟩ := C92_control nm pos (pre ++ ([.addWing name parent location side d] ++ a)) c (wingsCreated pre) props hc (by
        rw [wingsCreated_append, wingsCreated_append, show wingsCreated [PlaneOp.addWing name parent location side d] = 1 by
          simp [wingsCreated, addCalls, hv]]
        omega) hn
      rw [hb] at hw'
      obtain rfl := Option.some.inj hw'
      exact hsays s hs
  constructor
  · intro b w hb s hs a ha
    obtain ⟨pre, name, parent, location, side, d, post, rfl, hv, rfl⟩ := key b w hb
    obtain ⟨w', hw', _, hT⟩ := wing_target nm pos pre post name parent location side d hv
    obtain ⟨w'', hw'', hdecl, _⟩ := C92_dimensions nm pos pre post name parent location side d hv
    rw [hb] at hw' hw''
    obtain rfl := Option.some.inj hw'
    obtain rfl := Option.some.inj hw''
    have hT := hT s hs
    cases htg : targetOf (built nm pos (pre ++ [.addWing name parent location side d])).wings parent with
    | error e => rw [htg] at hT; simp only at hT; rw [hT] at ha; cases ha
    | ok t =>
      rw [htg] at hT
      obtain ⟨hp, hat⟩ := hT
      obtain rfl : t = .wing a := hp.symm.trans ha
      obtain ⟨q, rfl, hq, hget⟩ := (targetOf_wing _ _ a).1 htg
      obtain ⟨rfl, hne, pre', parent', location', side', d', post', rfl, hv', hside, hlast⟩ :=
        h.attach pre name q location side d post rfl hv hq
      have hnames : Names (pre' ++ PlaneOp.addWing q parent' location' side' d' :: post' ++
          [.addWing name (some q) "tip" side d]) q (wingsCreated pre') := by
        refine ⟨pre', parent', location', side', d', post' ++ [.addWing name (some q) "tip" side d], by simp, hv', rfl, ?_⟩
        intro x y e f hm
        rcases List.mem_append.1 hm with hm | hm
        · exact hlast x y e f hm
        · simp only [List.mem_singleton, PlaneOp.addWing.injEq] at hm
          exact absurd hm.1 hne
      have ha' : a = wingsCreated pre' := by
        have := (names_iff nm pos _ _ _).2 hnames
        rw [hget] at this
        exact Option.some.inj this
      subst ha'
      have hcount : wingsCreated pre' < wingsCreated (pre' ++ PlaneOp.addWing q parent' location' side' d' :: post') := by
        rw [show pre' ++ PlaneOp.addWing q parent' location' side' d' :: post' =
          pre' ++ ([PlaneOp.addWing q parent' location' side' d'] ++ post') by simp, wingsCreated_append, wingsCreated_append,
          show wingsCreated [PlaneOp.addWing q parent' location' side' d'] = 1 by simp [wingsCreated, addCalls, hv']]
        omega
      have hsd : side = "both" ∨ side = s.side.str := by
        have hm : (s.name, s.side, s.n) ∈ declaredSegs (name, side, d.grid.getD 40) := by
          rw [← hdecl]; exact List.mem_map.2 ⟨s, hs, rfl⟩
        exact declared_side hv hm
      obtain ⟨wa, hwa, hdecl', _⟩ := C92_dimensions nm pos pre' (post' ++ .addWing name (some q) "tip" side d :: post) q parent'
        location' side' d' hv'
      obtain ⟨x, hx, hxs⟩ := declared_has (name := q) (n := d'.grid.getD 40) s.side
        (show side' = "both" ∨ side' = s.side.str by
          rcases hside with e | e
          · exact .inl e
          · rcases hsd with e2 | e2
            · exact .inl (e.trans e2)
            · exact .inr (e.trans e2))
      rw [← hdecl'] at hx
      obtain ⟨u, hu, rfl⟩ := List.mem_map.1 hx
      refine ⟨hcount, by rw [hat, String.append_assoc]; rfl, wa, u, ?_, hu, hxs⟩
      simpa using hwa
  · intro b w hb s hs
    obtain ⟨name, parent, location, side, d, hm, hv, hsays⟩ := hsay b w hb s hs
    rw [hsays.sweep]; exact h.sweep name parent location side d hm hv
  · intro s hs
    obtain ⟨b, w, hb, hsw⟩ := mem_plane_segments hs
    obtain ⟨name, parent, location, side, d, hm, hv, hsays⟩ := hsay b w hb s hsw
    rw [hsays.span]; exact h.span name parent location side d hm hv
  · intro s hs
    obtain ⟨b, w, hb, hsw⟩ := mem_plane_segments hs
    obtain ⟨name, parent, location, side, d, hm, hv, hsays⟩ := hsay b w hb s hsw
    rw [hsays.n]; exact h.sections name parent location side d hm hv
  · intro s hs
    obtain ⟨b, w, hb, hsw⟩ := mem_plane_segments hs
    rcases ctrl b w hb s hsw with hd | ⟨id, props, hm, hc, hd⟩
    · rw [hd.spanRoot, hd.spanTip]; simp
    · rw [hd.spanRoot, hd.spanTip]
      cases hq : props.percentSpan with
      | none => simp
      | some x => exact (h.control id props hm hc).1 x.1 x.2 hq
  · intro s hs
    obtain ⟨b, w, hb, hsw⟩ := mem_plane_segments hs
    rcases ctrl b w hb s hsw with hd | ⟨id, props, hm, hc, hd⟩
    · rw [hd.chordRoot, hd.chordTip]; simp
    · rw [hd.chordRoot, hd.chordTip]
      cases hq : props.percentChord with
      | none => simp
      | some x => exact (h.control id props hm hc).2 x hq

/-- **C82.** Whenever the calls describe a well-formed aircraft, `LLGrid` is constructed without an exception and without non-finite
entries, for both spacings. -/
theorem C82_grid_exists (nm : String) (pos : Option V3) (ops : List PlaneOp) (h : WellFormedCalls ops) (cosine : Bool) :
    ∃ g, mkGrid (built nm pos ops) cosine = .ok g :=
  grid_exists nm pos ops (wellFormed_of h) cosine

/-- the swept wing with winglets, fin and ailerons is well-formed -/
example : WellFormedCalls demoOps := by
  have h30 : Real.cos (30 * Real.pi / 180) ≠ 0 := by
    apply ne_of_gt
    apply Real.cos_pos_of_mem_Ioo
    have := Real.pi_pos
    constructor <;> linarith
  constructor
  · intro pre name parent location side d post h hv hp
    have hlen := congrArg List.length h
    match pre, h with
    | [], h => simp [demoOps] at h
    | [x], h =>
      simp only [demoOps, List.cons_append, List.nil_append, List.cons.injEq, PlaneOp.addWing.injEq] at h
      obtain ⟨rfl, ⟨rfl, e, rfl, rfl, rfl⟩, _⟩ := h
      obtain rfl := Option.some.inj e
      exact ⟨rfl, by decide, [], none, "tip", "both", _, [], rfl, .inl rfl, .inl rfl, by simp⟩
    | [x, y], h => simp [demoOps] at h
    | [x, y, z], h => simp [demoOps] at h
    | x :: y :: z :: t :: u, h => simp [demoOps] at hlen
  · intro name parent location side d hm _
    simp [demoOps] at hm
    rcases hm with ⟨_, _, _, _, rfl⟩ | ⟨_, _, _, _, rfl⟩ | ⟨_, _, _, _, rfl⟩ <;> simp [h30]
  · intro name parent location side d hm _
    simp [demoOps] at hm
    rcases hm with ⟨_, _, _, _, rfl⟩ | ⟨_, _, _, _, rfl⟩ | ⟨_, _, _, _, rfl⟩ <;> simp
  · intro name parent location side d hm _
    simp [demoOps] at hm
    rcases hm with ⟨_, _, _, _, rfl⟩ | ⟨_, _, _, _, rfl⟩ | ⟨_, _, _, _, rfl⟩ <;> simp
  · intro id props hm _
    simp [demoOps] at hm
    obtain ⟨_, rfl⟩ := hm
    constructor
    · rintro a b ⟨⟩; norm_num
    · rintro q ⟨⟩; simp only [PctChord.atRoot, PctChord.atTip]; norm_num

end Verif
