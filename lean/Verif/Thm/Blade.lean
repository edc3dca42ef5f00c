import Verif.Spec.Blade
import Verif.Thm.PropBlade

/-!
# Blades as described (C103)
-/

namespace Verif

theorem zetaAt_eq (q : PropGeom) (i : ℕ) : zetaAt q i = stationAt q i := by
  unfold zetaAt stationAt
  ring

/-! ### interpolation -/

theorem pwl_between (b : ℝ × ℝ) (post : List (ℝ × ℝ)) : ∀ (pre : List (ℝ × ℝ)) (a : ℝ × ℝ),
    (pre ++ a :: b :: post).Pairwise (fun a b => a.1 < b.1) → ∀ {x : ℝ}, a.1 ≤ x → x ≤ b.1 →
    pwl (pre ++ a :: b :: post) x = a.2 + (x - a.1) / (b.1 - a.1) * (b.2 - a.2) := by
  intro pre
  induction pre with
  | nil =>
    intro a h x h1 h2
    obtain ⟨a1, a2⟩ := a
    obtain ⟨b1, b2⟩ := b
    simp only [List.nil_append, pwl]
    rw [if_pos (.inl h2)]
    ring
  | cons p pre ih =>
    intro a h x h1 h2
    have h' := h
    rw [List.cons_append, List.pairwise_cons] at h'
    have := ih a h'.2 h1 h2
    obtain ⟨p1, p2⟩ := p
    cases pre with
    | nil =>
      obtain ⟨a1, a2⟩ := a
      have ha : p1 < a1 := h'.1 (a1, a2) (by simp)
      simp only [List.nil_append, List.cons_append] at this ⊢
      rw [pwl]
      by_cases hc : x ≤ a1 ∨ b :: post = []
      · rw [if_pos hc]
        rcases hc with hc | hc
        · have e : x = a1 := le_antisymm hc h1
          subst e
          have : x - p1 ≠ 0 := by linarith
          field_simp
          ring
        · cases hc
      · rw [if_neg hc]
        exact this
    | cons r pre =>
      obtain ⟨r1, r2⟩ := r
      simp only [List.cons_append] at this ⊢
      rw [pwl]
      split_ifs with hc
      · exfalso
        rcases hc with hc | hc
        · have hr := (List.pairwise_cons.1 h'.2).1 a (by simp)
          simp only at hr
          linarith
        · simp at hc
      · exact this

theorem split_sorted {l : List (ℝ × ℝ)} (h : l.Pairwise (fun a b => a.1 < b.1)) {a b : ℝ × ℝ} (ha : a ∈ l) (hb : b ∈ l)
    (hab : a.1 < b.1) (hc : ∀ c ∈ l, c.1 ≤ a.1 ∨ b.1 ≤ c.1) : ∃ pre post, l = pre ++ a :: b :: post := by
  obtain ⟨pre, r, rfl⟩ := List.append_of_mem ha
  obtain ⟨-, h2, h3⟩ := List.pairwise_append.1 h
  rw [List.pairwise_cons] at h2
  have hbr : b ∈ r := by
    rcases List.mem_append.1 hb with hb | hb
    · exact absurd (h3 b hb a (by simp)) (by linarith)
    · rcases List.mem_cons.1 hb with rfl | hb
      · exact absurd hab (lt_irrefl _)
      · exact hb
  obtain _ | ⟨c, post⟩ := r
  · cases hbr
  · refine ⟨pre, post, ?_⟩
    rcases List.mem_cons.1 hbr with rfl | hbp
    · rfl
    · exfalso
      have k1 := (List.pairwise_cons.1 h2.2).1 b hbp
      have k2 := h2.1 c (by simp)
      rcases hc c (by simp) with k | k <;> linarith

theorem interpFill_spec {l : List (ℝ × ℝ)} (h : l.Pairwise (fun a b => a.1 < b.1)) (x : ℝ) : Interpolates l x (interpFill l x) := by
  obtain _ | ⟨p, t⟩ := l
  · exact ⟨by simp, by simp, by simp⟩
  have hh : (p :: t).head? = some p := rfl
  have hl : (p :: t).getLast? = some ((p :: t).getLast (by simp)) := List.getLast?_eq_getLast_of_ne_nil (by simp)
  set z := (p :: t).getLast (by simp) with hz
  have hzm : z ∈ p :: t := List.getLast_mem _
  have hp : ∀ c ∈ p :: t, p.1 ≤ c.1 := by
    intro c hc
    rcases List.mem_cons.1 hc with rfl | hc
    · exact le_rfl
    · exact ((List.pairwise_cons.1 h).1 c hc).le
  have hzz : p :: t = (p :: t).dropLast ++ [z] := (List.dropLast_append_getLast (by simp)).symm
  have hmax : ∀ c ∈ p :: t, c.1 ≤ z.1 := by
    intro c hc
    rw [hzz] at h hc
    rcases List.mem_append.1 hc with hc | hc
    · exact ((List.pairwise_append.1 h).2.2 c hc z (by simp)).le
    · rw [List.mem_singleton.1 hc]
  have huniq : ∀ a ∈ p :: t, ∀ b ∈ p :: t, a.1 = b.1 → a = b := by
    intro a ha b hb e
    obtain ⟨pre, r, hr⟩ := List.append_of_mem ha
    rw [hr] at h hb
    obtain ⟨-, h2, h3⟩ := List.pairwise_append.1 h
    rcases List.mem_append.1 hb with hb | hb
    · have := h3 b hb a (by simp)
      linarith
    · rcases List.mem_cons.1 hb with rfl | hb
      · rfl
      · have := (List.pairwise_cons.1 h2).1 b hb
        linarith
  clear_value z
  unfold interpFill
  rw [hh, hl]
  simp only
  refine ⟨fun a ha hmin hx => ?_, fun a ha hmx hx => ?_, fun a ha b hb hab hc h1 h2 => ?_⟩
  · have e : a = p := huniq a ha p (by simp) (le_antisymm (hmin p (by simp)) (hp a ha))
    subst e
    split_ifs with h1 h2
    · rfl
    · have := hmax a (by simp)
      linarith
    · have e : x = a.1 := le_antisymm hx (not_lt.1 h1)
      obtain _ | ⟨b, t⟩ := t
      · rfl
      · have hb := (List.pairwise_cons.1 h).1 b (by simp)
        rw [show a :: b :: t = [] ++ a :: b :: t from rfl, pwl_between b t [] a h e.ge (by linarith), e]
        simp
  · have e : a = z := huniq a ha z hzm (le_antisymm (hmax a ha) (hmx z hzm))
    subst e
    split_ifs with h1 h2
    · have := hp _ ha
      linarith
    · rfl
    · have e : x = a.1 := le_antisymm (not_lt.1 h2) hx
      rcases List.eq_nil_or_concat (p :: t).dropLast with hd | ⟨L, b, hd⟩
      · rw [hd] at hzz
        simp only [List.nil_append, List.cons.injEq] at hzz
        rw [hzz.1, hzz.2]
        rfl
      · rw [hd, List.concat_eq_append, List.append_assoc, List.singleton_append] at hzz
        rw [hzz] at h ⊢
        have hb : b.1 < a.1 := (List.pairwise_cons.1 (List.pairwise_append.1 h).2.1).1 a (by simp)
        have hne : a.1 - b.1 ≠ 0 := by linarith
        rw [pwl_between a [] L b h (by linarith) (by linarith), e, div_self hne]
        ring
  · obtain ⟨pre, post, e⟩ := split_sorted h ha hb hab hc
    have k1 := hp a ha
    have k2 := hmax b hb
    rw [if_neg (by linarith), if_neg (by linarith), e]
    rw [e] at h
    exact pwl_between b post pre a h h1 h2

theorem Interpolates.perm {l l' : List (ℝ × ℝ)} {x v : ℝ} (hp : l.Perm l') (h : Interpolates l x v) : Interpolates l' x v := by
  have e : ∀ a, a ∈ l' ↔ a ∈ l := fun a => (hp.mem_iff).symm
  refine ⟨fun a ha hm hx => h.below a ((e a).1 ha) (fun b hb => hm b ((e b).2 hb)) hx,
    fun a ha hm hx => h.above a ((e a).1 ha) (fun b hb => hm b ((e b).2 hb)) hx,
    fun a ha b hb hab hc h1 h2 => h.between a ((e a).1 ha) b ((e b).1 hb) hab (fun c hc' => hc c ((e c).2 hc')) h1 h2⟩

theorem Interpolates.unique {l : List (ℝ × ℝ)} (hl : l ≠ []) {x v v' : ℝ} (h : Interpolates l x v) (h' : Interpolates l x v') :
    v = v' := by
  classical
  have hne : l.toFinset.Nonempty := by
    obtain ⟨a, ha⟩ := List.exists_mem_of_ne_nil l hl
    exact ⟨a, by simpa using ha⟩
  obtain ⟨m, hm, hmin⟩ := Finset.exists_min_image l.toFinset Prod.fst hne
  obtain ⟨M, hM, hmax⟩ := Finset.exists_max_image l.toFinset Prod.fst hne
  simp only [List.mem_toFinset] at hm hM hmin hmax
  by_cases h1 : x ≤ m.1
  · rw [h.below m hm hmin h1, h'.below m hm hmin h1]
  by_cases h2 : M.1 ≤ x
  · rw [h.above M hM hmax h2, h'.above M hM hmax h2]
  push Not at h1 h2
  obtain ⟨a, ha, hamax⟩ := Finset.exists_max_image (l.toFinset.filter fun c => c.1 ≤ x) Prod.fst ⟨m, by simp [hm, h1.le]⟩
  obtain ⟨b, hb, hbmin⟩ := Finset.exists_min_image (l.toFinset.filter fun c => x < c.1) Prod.fst ⟨M, by simp [hM, h2]⟩
  simp only [Finset.mem_filter, List.mem_toFinset] at ha hb hamax hbmin
  have hc : ∀ c ∈ l, c.1 ≤ a.1 ∨ b.1 ≤ c.1 := by
    intro c hc
    rcases le_or_gt c.1 x with k | k
    · exact .inl (hamax c ⟨hc, k⟩)
    · exact .inr (hbmin c ⟨hc, k⟩)
  rw [h.between a ha.1 b hb.1 (by linarith [ha.2, hb.2]) hc ha.2 hb.2.le, h'.between a ha.1 b hb.1 (by linarith [ha.2, hb.2]) hc ha.2 hb.2.le]

/-! ### C103 -/

theorem mapM_ok {α β : Type} {f : α → Except PyErr β} : ∀ {l : List α} {r : List β}, l.mapM f = .ok r →
    List.Forall₂ (fun a b => f a = .ok b) l r := by
  intro l
  induction l with
  | nil =>
    intro r h
    simp only [List.mapM_nil, pure, Except.pure, Except.ok.injEq] at h
    subst h
    exact .nil
  | cons a t ih =>
    intro r h
    rw [List.mapM_cons] at h
    rcases h1 : f a with e | b
    · simp [h1, bind, Except.bind] at h
    rcases h2 : t.mapM f with e | bs
    · simp [h1, h2, bind, Except.bind] at h
    simp only [h1, h2, bind, Except.bind, pure, Except.pure, Except.ok.injEq] at h
    subst h
    exact .cons h1 (ih h2)

theorem spanFrac_ok {q : PropGeom} {a : Airfoil} {x : ℝ} (h : spanFrac (zetaAt q 0) (zetaAt q (q.nodes - 1)) a.spanPosition = .ok x) :
    BelongsAt q a x := by
  unfold spanFrac at h
  rcases hs : a.spanPosition with _ | (s | y) <;> rw [hs] at h
  · cases h
  · simp only at h
    split_ifs at h with h1 h2
    · cases h
      exact .inl ⟨s, hs, by simpa using h1, zetaAt_eq q 0⟩
    · cases h
      exact .inr (.inl ⟨s, hs, by simpa using h2, zetaAt_eq q _⟩)
  · cases h
    exact .inr (.inr hs)

theorem sorted_strict {α : Type} {l : List (ℝ × α)} (h : l.Pairwise (fun a b => a.1 ≤ b.1)) (hn : (l.map Prod.fst).Nodup) :
    l.Pairwise (fun a b => a.1 < b.1) := by
  have hn' : l.Pairwise (fun a b => a.1 ≠ b.1) := by
    rw [List.Nodup, List.pairwise_map] at hn
    exact hn
  exact (h.and hn').imp fun ⟨h1, h2⟩ => lt_of_le_of_ne h1 h2

open Classical in
/-- positions and airfoils, as the STL output uses them -/
theorem placed_pos {q : PropGeom} {pos : List (ℝ × Airfoil)}
    (h : q.airfoils.mapM (fun kv => do
      let x ← spanFrac (zetaAt q 0) (zetaAt q (q.nodes - 1)) kv.2.spanPosition
      return (x, kv.2)) = .ok pos)
    (hn : ((pos.insertionSort fun a b => a.1 ≤ b.1).map Prod.fst).Nodup) :
    Placed q pos ∧ (pos.insertionSort fun a b => a.1 ≤ b.1).Pairwise (fun a b => a.1 < b.1) := by
  refine ⟨⟨?_, ?_⟩, sorted_strict (List.pairwise_insertionSort _ _) hn⟩
  · refine (mapM_ok h).imp fun a b h1 => ?_
    rcases h2 : spanFrac (zetaAt q 0) (zetaAt q (q.nodes - 1)) a.2.spanPosition with e | x
    · simp [h2, bind, Except.bind] at h1
    simp only [h2, bind, Except.bind, pure, Except.pure, Except.ok.injEq] at h1
    rw [← h1]
    exact ⟨rfl, spanFrac_ok h2⟩
  · exact ((List.perm_insertionSort _ _).map Prod.fst).nodup_iff.1 hn

open Classical in
/-- positions and airfoils, sorted, as the constructor uses them -/
theorem placed_sorted {α : Type} {q : PropGeom} (g : Airfoil → α) {pos : List (ℝ × α)}
    (h : q.airfoils.mapM (fun kv => do
      let x ← spanFrac (zetaAt q 0) (zetaAt q (q.nodes - 1)) kv.2.spanPosition
      return (x, g kv.2)) = .ok pos)
    (hn : ((pos.insertionSort fun a b => a.1 ≤ b.1).map Prod.fst).Nodup) :
    ∃ l, Placed q l ∧ ∀ (f : α → ℝ) (x : ℝ), Interpolates (l.map fun p => (p.1, f (g p.2))) x
      (interpFill ((pos.insertionSort fun a b => a.1 ≤ b.1).map fun p => (p.1, f p.2)) x) := by
  have hperm : (pos.insertionSort fun a b => a.1 ≤ b.1).Perm pos := List.perm_insertionSort _ _
  have hF := mapM_ok h
  have hex : ∃ l : List (ℝ × Airfoil), List.Forall₂ (fun kv p => p.2 = kv.2 ∧ BelongsAt q kv.2 p.1) q.airfoils l ∧
      pos = l.map fun p => (p.1, g p.2) := by
    clear hn hperm h
    generalize q.airfoils = A at hF
    induction hF with
    | nil => exact ⟨[], .nil, rfl⟩
    | @cons a b A B h1 _ ih =>
      obtain ⟨l, k1, k2⟩ := ih
      rcases h2 : spanFrac (zetaAt q 0) (zetaAt q (q.nodes - 1)) a.2.spanPosition with e | x
      · simp [h2, bind, Except.bind] at h1
      simp only [h2, bind, Except.bind, pure, Except.pure, Except.ok.injEq] at h1
      exact ⟨(x, a.2) :: l, .cons ⟨rfl, spanFrac_ok h2⟩ k1, by rw [← h1, k2]; rfl⟩
  obtain ⟨l, k1, k2⟩ := hex
  refine ⟨l, ⟨k1, ?_⟩, fun f x => ?_⟩
  · have := (hperm.map Prod.fst).nodup_iff.1 hn
    rw [k2, List.map_map] at this
    exact this
  · have hs : (pos.insertionSort fun a b => a.1 ≤ b.1).Pairwise (fun a b => a.1 < b.1) :=
      sorted_strict (List.pairwise_insertionSort _ _) hn
    have h1 := interpFill_spec (l := (pos.insertionSort fun a b => a.1 ≤ b.1).map fun p => (p.1, f p.2))
      (by rw [List.pairwise_map]; exact hs) x
    refine h1.perm ?_
    have := hperm.map (fun p => (p.1, f p.2))
    rw [k2, List.map_map] at this
    rw [k2]
    exact this

open Classical in
theorem bladeAf_along {q : PropGeom} {af : ℕ → BladeAf} (h : bladeAf q = .ok af) (i : ℕ) :
    AlongBlade q (·.al0) i (af i).aL0 ∧ AlongBlade q (·.cla) i (af i).CLa ∧ AlongBlade q (·.clMax) i (af i).CLm ∧
    AlongBlade q (·.cd0) i (af i).CD0 ∧ AlongBlade q (·.cd1) i (af i).CDL ∧ AlongBlade q (·.cd2) i (af i).CDL2 := by
  unfold bladeAf at h
  split at h
  · rename_i he
    cases h
    refine ⟨?_, ?_, ?_, ?_, ?_, ?_⟩ <;> exact .inl ⟨he, rfl⟩
  · rename_i n a he
    cases h
    refine ⟨?_, ?_, ?_, ?_, ?_, ?_⟩ <;> exact .inr (.inl ⟨n, a, he, rfl⟩)
  · rename_i h0 h1
    rcases hm : q.airfoils.mapM (fun kv => do
      let x ← spanFrac (zetaAt q 0) (zetaAt q (q.nodes - 1)) kv.2.spanPosition
      return (x, kv.2.blade)) with e | pos
    · rw [hm] at h; cases h
    rw [hm] at h
    simp only [bind, Except.bind] at h
    split_ifs at h with hn
    cases h
    obtain ⟨l, k1, k2⟩ := placed_sorted Airfoil.blade hm hn
    have hlen : 2 ≤ q.airfoils.length := by
      rcases hq : q.airfoils with _ | ⟨a, _ | ⟨b, t⟩⟩
      · exact absurd hq h0
      · exact absurd hq (h1 _ _)
      · simp
    simp only [zetaAt_eq]
    exact ⟨.inr (.inr ⟨hlen, l, k1, k2 BladeAf.aL0 _⟩), .inr (.inr ⟨hlen, l, k1, k2 BladeAf.CLa _⟩),
      .inr (.inr ⟨hlen, l, k1, k2 BladeAf.CLm _⟩), .inr (.inr ⟨hlen, l, k1, k2 BladeAf.CD0 _⟩),
      .inr (.inr ⟨hlen, l, k1, k2 BladeAf.CDL _⟩), .inr (.inr ⟨hlen, l, k1, k2 BladeAf.CDL2 _⟩)⟩

theorem bladeChord_at {table : String → ℝ → ℝ} {q : PropGeom} (hn : q.nodes ≠ 0) {i : ℕ} {c : ℝ}
    (h : bladeChord table q (zetaAt q i) = .ok (some c)) : ChordAt table q i c := by
  unfold bladeChord at h
  have hell : ∀ {z r : ℝ} {k : ℝ}, ((ellipse z).map (k * ·) = some r) → r = k * Real.sqrt (1 - z ^ 2) := by
    intro z r k h
    unfold ellipse at h
    split_ifs at h
    · cases h
    · simpa using h.symm
  split at h
  · cases h
  · rename_i ht
    refine .inl ⟨ht, ?_⟩
    rw [← zetaAt_eq]
    exact hell (Except.ok.inj h)
  · rename_i ht
    rcases hf : q.chord.filename with _ | f
    · rw [hf] at h; cases h
    rw [hf] at h
    simp only [getKey, bind, Except.bind, pure, Except.pure, Except.ok.injEq, Option.some.injEq] at h
    refine .inr (.inr (.inr ⟨f, ht, hf, ?_⟩))
    rw [← zetaAt_eq, ← h]
    ring
  · rename_i ht
    rcases hr : q.chord.root with _ | root
    · rw [hr] at h; cases h
    rw [hr] at h
    simp only [getKey, bind, Except.bind, pure, Except.pure, Except.ok.injEq] at h
    refine .inr (.inr (.inl ⟨root, ht, hr, ?_⟩))
    unfold linearInterp at h
    simp only at h
    split_ifs at h with hs
    simp only [Option.some.injEq] at h
    rw [← h]
    have hc : ((q.nodes - 1 : ℕ) : ℝ) = (q.nodes : ℝ) - 1 := by
      rw [Nat.cast_sub (Nat.one_le_iff_ne_zero.2 hn)]; simp
    unfold zetaAt at hs ⊢
    rw [hc] at hs ⊢
    set n : ℝ := (q.nodes : ℝ) - 1
    set d := 0.999 - q.hubDiameter / q.diameter
    have hn0 : n ≠ 0 := by
      intro h0
      rw [h0] at hs
      simp at hs
    have hd0 : d ≠ 0 := by
      intro h0
      rw [h0] at hs
      simp at hs
    have e : q.hubDiameter / q.diameter + n * (d / n) - (q.hubDiameter / q.diameter + ((0 : ℕ) : ℝ) * (d / n)) = d := by
      push_cast; field_simp; ring
    rw [e]
    push_cast
    field_simp
    ring
  · rename_i ht
    rcases hr : q.chord.root with _ | root
    · rw [hr] at h; cases h
    rw [hr] at h
    simp only [getKey, bind, Except.bind, pure, Except.pure, Except.ok.injEq] at h
    refine .inr (.inl ⟨root, ht, hr, ?_⟩)
    rw [← zetaAt_eq]
    exact hell h
  · cases h

variable {ι : Type} {table : String → ℝ → ℝ} {q : PropGeom} {cg : V3} {units : Option String} {pts : Option (ι → V3)} {M : PropM ι}

/-- **C103.** For every propeller that can be constructed, the blade is what its description says at every station: the radius, the
chord, and the data of the section, interpolated between the airfoils where they belong. -/
theorem C103_blade (h : mkPropM table q cg units pts = .ok M) {i : ℕ} (hi : i < q.nodes) :
    (M.stn i).r = stationAt q i * (q.diameter / 2) ∧ ChordAt table q i (M.stn i).cb ∧
    AlongBlade q (·.al0) i (M.stn i).af.aL0 ∧ AlongBlade q (·.cla) i (M.stn i).af.CLa ∧
    AlongBlade q (·.clMax) i (M.stn i).af.CLm ∧ AlongBlade q (·.cd0) i (M.stn i).af.CD0 ∧
    AlongBlade q (·.cd1) i (M.stn i).af.CDL ∧ AlongBlade q (·.cd2) i (M.stn i).af.CDL2 := by
  obtain ⟨-, hn, -, -, -, -, -, af, haf, hst⟩ := mkPropM_ok h
  obtain ⟨beta, cb, -, hc, hs⟩ := hst i hi
  unfold mkStn at hs
  simp only at hs
  split_ifs at hs with hf
  simp only [Option.some.injEq] at hs
  rw [← hs]
  refine ⟨?_, bladeChord_at hn hc, bladeAf_along haf i⟩
  simp only [zetaAt_eq]
  ring

/-- **C103, ends.** The stations run from the hub radius to 99.9 % of the tip radius. -/
theorem C103_ends (h : mkPropM table q cg units pts = .ok M) (hn : 2 ≤ q.nodes) :
    (M.stn 0).r = q.hubDiameter / 2 ∧ (M.stn (q.nodes - 1)).r = 0.999 * (q.diameter / 2) := by
  have hd := (mkPropM_ok h).1
  rw [(C103_blade h (by omega)).1, (C103_blade h (by omega)).1]
  have hc : ((q.nodes - 1 : ℕ) : ℝ) = (q.nodes : ℝ) - 1 := by
    rw [Nat.cast_sub (by omega)]; simp
  have h0 : (q.nodes : ℝ) - 1 ≠ 0 := by
    have : (2 : ℝ) ≤ q.nodes := by exact_mod_cast hn
    linarith
  unfold stationAt
  rw [hc, div_self h0]
  constructor
  · push_cast; field_simp; ring
  · ring

/-! ### the order of the airfoils -/

/-- where an airfoil belongs, as a function -/
noncomputable def whereOf (q : PropGeom) (a : Airfoil) : ℝ :=
  match a.spanPosition with
  | some (.name s) => if s ∈ ["root", "Root", "ROOT"] then stationAt q 0 else stationAt q (q.nodes - 1)
  | some (.frac x) => x
  | none => 0

theorem belongsAt_where {q : PropGeom} {a : Airfoil} {x : ℝ} (h : BelongsAt q a x) : x = whereOf q a := by
  unfold whereOf
  rcases h with ⟨s, h1, h2, h3⟩ | ⟨s, h1, h2, h3⟩ | h
  · rw [h1]; simp only; rw [if_pos h2, h3]
  · rw [h1]; simp only
    rw [if_neg, h3]
    intro hc
    simp only [List.mem_cons, List.not_mem_nil, or_false] at h2 hc
    rcases h2 with rfl | rfl | rfl <;> revert hc <;> decide
  · rw [h]

theorem placed_eq {q : PropGeom} {l : List (ℝ × Airfoil)} (h : Placed q l) : l = q.airfoils.map fun kv => (whereOf q kv.2, kv.2) := by
  obtain ⟨h, -⟩ := h
  generalize q.airfoils = A at h
  induction h with
  | nil => rfl
  | cons h1 _ ih =>
    rw [List.map_cons, ← ih, ← belongsAt_where h1.2, ← h1.1]

theorem along_order {q : PropGeom} {A : List (String × Airfoil)} (hA : q.airfoils.Perm A) {f : Airfoil → ℝ} {i : ℕ} {v v' : ℝ}
    (h : AlongBlade q f i v) (h' : AlongBlade { q with airfoils := A } f i v') : v = v' := by
  rcases h with ⟨h1, h2⟩ | ⟨n, a, h1, h2⟩ | ⟨h1, l, h2, h3⟩
  · rw [h1] at hA
    have hA := List.nil_perm.1 hA
    subst hA
    rcases h' with ⟨-, k2⟩ | ⟨n, a, k1, -⟩ | ⟨k1, -⟩
    · rw [h2, k2]
    · cases k1
    · simp at k1
  · rw [h1] at hA
    have hA := List.singleton_perm.1 hA
    subst hA
    rcases h' with ⟨k1, -⟩ | ⟨n, a, k1, k2⟩ | ⟨k1, -⟩
    · cases k1
    · simp only [List.cons.injEq, Prod.mk.injEq, and_true] at k1
      rw [h2, k2, k1.2]
    · simp at k1
  · rcases h' with ⟨k1, -⟩ | ⟨n, a, k1, -⟩ | ⟨k1, l', k2, k3⟩
    · simp only at k1
      rw [hA.length_eq, k1] at h1
      simp at h1
    · simp only at k1
      rw [hA.length_eq, k1] at h1
      simp at h1
    · have e := placed_eq h2
      have e' := placed_eq k2
      have hp : l'.Perm l := by
        rw [e, e']
        exact (hA.map _).symm
      refine h3.unique ?_ (k3.perm (hp.map _))
      rw [e]
      intro hn
      have := congrArg List.length hn
      simp at this
      rw [this] at h1
      simp at h1

/-- **C103, order.** Listing the airfoils in another order gives the same blade. -/
theorem C103_order {A : List (String × Airfoil)} (hA : q.airfoils.Perm A) {M' : PropM ι}
    (h : mkPropM table q cg units pts = .ok M) (h' : mkPropM table { q with airfoils := A } cg units pts = .ok M') {i : ℕ}
    (hi : i < q.nodes) : M'.stn i = M.stn i := by
  obtain ⟨-, -, a1, a2, a3, a4, a5, a6⟩ := C103_blade h hi
  obtain ⟨-, -, b1, b2, b3, b4, b5, b6⟩ := C103_blade h' (i := i) hi
  have e : (M'.stn i).af = (M.stn i).af := by
    have e1 := along_order hA a1 b1
    have e2 := along_order hA a2 b2
    have e3 := along_order hA a3 b3
    have e4 := along_order hA a4 b4
    have e5 := along_order hA a5 b5
    have e6 := along_order hA a6 b6
    cases hM : (M.stn i).af
    cases hM' : (M'.stn i).af
    simp_all
  obtain ⟨-, -, -, -, -, -, -, af, -, hst⟩ := mkPropM_ok h
  obtain ⟨-, -, -, -, -, -, -, af', -, hst'⟩ := mkPropM_ok h'
  obtain ⟨beta, cb, h1, h2, h3⟩ := hst i hi
  obtain ⟨beta', cb', k1, k2, k3⟩ := hst' i hi
  have haf : (M.stn i).af = af i := by
    unfold mkStn at h3
    simp only at h3
    split_ifs at h3
    simp only [Option.some.injEq] at h3
    rw [← h3]
  have haf' : (M'.stn i).af = af' i := by
    unfold mkStn at k3
    simp only at k3
    split_ifs at k3
    simp only [Option.some.injEq] at k3
    rw [← k3]
  have ea : af' i = af i := by rw [← haf, ← haf', e]
  rw [ea] at k1 k3
  have k1' : bladePitch table q (zetaAt q i) (zetaAt q i * q.diameter * 0.5) (af i).aL0 = .ok (some beta') := k1
  have k2' : bladeChord table q (zetaAt q i) = .ok (some cb') := k2
  have k3' : mkStn q (zetaAt q i) (zetaAt q i * q.diameter * 0.5) (af i) beta' cb' = some (M'.stn i) := k3
  rw [h1] at k1'
  rw [h2] at k2'
  simp only [Except.ok.injEq, Option.some.injEq] at k1' k2'
  rw [← k1', ← k2', h3] at k3'
  exact (Option.some.inj k3').symm

section Examples

/-- a propeller with three stations and two airfoils, the one at the tip first -/
noncomputable def twoFoils : PropGeom :=
  { demoProp with
    nodes := 3
    airfoils := [("t", { demoFoil with spanPosition := some (.name "tip"), cd0 := 0.03 }),
      ("r", { demoFoil with spanPosition := some (.name "root") })] }

theorem two_station (i : ℕ) : stationAt twoFoils i = 0.5 + i * 0.2495 := by
  unfold stationAt twoFoils demoProp
  norm_num
  ring

theorem two_placed : Placed twoFoils [(0.999, { demoFoil with spanPosition := some (.name "tip"), cd0 := 0.03 }),
    (0.5, { demoFoil with spanPosition := some (.name "root") })] := by
  refine ⟨.cons ⟨rfl, .inr (.inl ⟨"tip", rfl, by simp, ?_⟩)⟩ (.cons ⟨rfl, .inl ⟨"root", rfl, by simp, ?_⟩⟩ .nil), by norm_num⟩
  · rw [two_station]
    norm_num [twoFoils]
  · rw [two_station]
    norm_num

theorem two_along {f : Airfoil → ℝ} {i : ℕ} (hi : i < 3) {v : ℝ} (h : AlongBlade twoFoils f i v) :
    v = f { demoFoil with spanPosition := some (.name "root") } + i / 2 *
      (f { demoFoil with spanPosition := some (.name "tip"), cd0 := 0.03 } - f { demoFoil with spanPosition := some (.name "root") }) := by
  rcases h with ⟨h, -⟩ | ⟨n, a, h, -⟩ | ⟨-, l, h2, h3⟩
  · simp [twoFoils] at h
  · simp [twoFoils] at h
  · rw [placed_eq h2, ← placed_eq two_placed] at h3
    have hx : (0.5 : ℝ) ≤ stationAt twoFoils i := by rw [two_station]; have : (0 : ℝ) ≤ i := Nat.cast_nonneg i; norm_num
    have hx' : stationAt twoFoils i ≤ (0.999 : ℝ) := by
      rw [two_station]
      have : (i : ℝ) ≤ 2 := by exact_mod_cast Nat.lt_succ_iff.1 hi
      norm_num
      linarith
    have := h3.between (0.5, f { demoFoil with spanPosition := some (.name "root") }) (by simp)
      (0.999, f { demoFoil with spanPosition := some (.name "tip"), cd0 := 0.03 }) (by simp) (by norm_num) (by
        intro c hc
        simp only [List.map_cons, List.map_nil, List.mem_cons, List.not_mem_nil, or_false] at hc
        rcases hc with rfl | rfl
        · exact .inr le_rfl
        · exact .inl le_rfl) hx hx'
    rw [this, two_station]
    congr 1
    congr 1
    norm_num
    ring

open Classical in
theorem two_bladeAf : ∃ af, bladeAf twoFoils = .ok af := by
  have hm : twoFoils.airfoils.mapM (fun kv => do
      let x ← spanFrac (zetaAt twoFoils 0) (zetaAt twoFoils (twoFoils.nodes - 1)) kv.2.spanPosition
      return (x, kv.2.blade)) = .ok [(zetaAt twoFoils 2, { demoFoil with spanPosition := some (.name "tip"), cd0 := 0.03 : Airfoil}.blade),
        (zetaAt twoFoils 0, { demoFoil with spanPosition := some (.name "root") : Airfoil }.blade)] := by
    rfl
  unfold bladeAf
  have hn : ((List.insertionSort (fun a b => a.1 ≤ b.1)
      [(zetaAt twoFoils 2, { demoFoil with spanPosition := some (.name "tip"), cd0 := 0.03 : Airfoil}.blade),
        (zetaAt twoFoils 0, { demoFoil with spanPosition := some (.name "root") : Airfoil }.blade)]).map Prod.fst).Nodup := by
    rw [((List.perm_insertionSort _ _).map Prod.fst).nodup_iff]
    rw [zetaAt_eq, zetaAt_eq, two_station, two_station]
    norm_num
  have e : twoFoils.airfoils = [("t", { demoFoil with spanPosition := some (.name "tip"), cd0 := 0.03 }),
      ("r", { demoFoil with spanPosition := some (.name "root") })] := rfl
  rw [e] at hm ⊢
  simp only
  rw [hm]
  simp only [bind, Except.bind]
  rw [if_pos hn]
  exact ⟨_, rfl⟩

theorem two_ok (ι : Type) (table : String → ℝ → ℝ) (cg : V3) (units : Option String) (pts : Option (ι → V3)) :
    ∃ M : PropM ι, mkPropM table twoFoils cg units pts = .ok M ∧ (M.stn 1).af.CD0 = 0.02 := by
  obtain ⟨af, haf⟩ := two_bladeAf
  have hz : ∀ i, zetaAt twoFoils i = 0.5 + i * 0.2495 := fun i => by rw [zetaAt_eq, two_station]
  have hnode : ∀ i, i < 3 → ∃ beta cb s,
      bladePitch table twoFoils (zetaAt twoFoils i) (zetaAt twoFoils i * twoFoils.diameter * 0.5) (af i).aL0 = .ok (some beta) ∧
      bladeChord table twoFoils (zetaAt twoFoils i) = .ok (some cb) ∧
      mkStn twoFoils (zetaAt twoFoils i) (zetaAt twoFoils i * twoFoils.diameter * 0.5) (af i) beta cb = some s := by
    intro i hi
    obtain ⟨a1, a2, a3, -⟩ := bladeAf_along haf i
    have a1 := two_along hi a1
    have a2 := two_along hi a2
    have a3 := two_along hi a3
    simp only [demoFoil, sub_self, mul_zero, add_zero] at a1 a2 a3
    have hpos : 0 < zetaAt twoFoils i := by rw [hz]; have : (0 : ℝ) ≤ i := Nat.cast_nonneg i; norm_num; positivity
    have hr : zetaAt twoFoils i * twoFoils.diameter * 0.5 = zetaAt twoFoils i := by
      simp only [twoFoils, demoProp]; ring
    rw [hr, a1]
    have hcb : bladeChord table twoFoils (zetaAt twoFoils i) = .ok (some (0.1517 * zetaAt twoFoils i)) := by
      unfold bladeChord
      simp only [show twoFoils.chord = { type := some "linear", root := some 0.07585, tip := some 0.1515483 } from rfl, getKey, bind,
        Except.bind, pure, Except.pure, Option.getD_some]
      unfold linearInterp
      simp only [show twoFoils.nodes - 1 = 2 from rfl, hz]
      rw [if_neg (by norm_num)]
      norm_num
      ring
    have hb : bladePitch table twoFoils (zetaAt twoFoils i) (zetaAt twoFoils i) 0 =
        .ok (some (Real.arctan (1 / (Real.pi * zetaAt twoFoils i)))) := demo_pitch table (zetaAt twoFoils i) hpos
    have hcr : 0.1517 * zetaAt twoFoils i / zetaAt twoFoils i = 0.1517 := by field_simp
    have hsep : (0.1517 / (0.1517 * zetaAt twoFoils i / zetaAt twoFoils i)) ^ (1 / 1.084 : ℝ) *
        (0.1517 * zetaAt twoFoils i / zetaAt twoFoils i) / 0.136 = 0.1517 / 0.136 := by
      rw [hcr, div_self (by norm_num), Real.one_rpow, one_mul]
    have hst : (af i).CLm / (af i).CLa = 0.2 := by rw [a2, a3]; norm_num
    have hcos : ∀ x : ℝ, |x| < 1.5 → Real.cos x ≠ 0 := by
      intro x hx
      rw [abs_lt] at hx
      have := Real.pi_gt_d2
      refine (Real.cos_pos_of_mem_Ioo ⟨?_, ?_⟩).ne' <;> norm_num at hx this ⊢ <;> linarith
    have hs : ∃ s, mkStn twoFoils (zetaAt twoFoils i) (zetaAt twoFoils i) (af i) (Real.arctan (1 / (Real.pi * zetaAt twoFoils i)))
        (0.1517 * zetaAt twoFoils i) = some s := by
      unfold mkStn
      simp only [hsep, hst, a1, mul_zero, add_zero]
      rw [if_pos]
      · exact ⟨_, rfl⟩
      · refine ⟨hpos.ne', hpos.ne', by rw [a2]; norm_num, by rw [hcr]; norm_num, hcos _ ?_, hcos _ ?_, hcos _ ?_,
          hcos _ ?_⟩ <;> norm_num [abs_lt]
    obtain ⟨s, hs⟩ := hs
    exact ⟨_, _, s, hb, hcb, hs⟩
  obtain ⟨M, hM⟩ := mkPropM_of (ι := ι) (table := table) cg units pts (q := twoFoils) (mo := none) (by norm_num [twoFoils, demoProp])
    (by norm_num [twoFoils]) haf (by simp [calcMotor, twoFoils, demoProp]) hnode
  refine ⟨M, hM, ?_⟩
  obtain ⟨-, -, -, -, -, h, -⟩ := C103_blade hM (i := 1) (by norm_num [twoFoils])
  rw [two_along (by norm_num) h]
  norm_num [demoFoil]

end Examples

end Verif
