import Verif.Lemmas.CutPlane

/-! Helper lemmas: the grids of aircraft that differ in whether one wing was described in one piece or in two. -/

namespace Verif
open V3

variable {N : ℕ} {x : ℝ} {w w' : String}

theorem addWing_none_eq {name side : String} {d : WingDims} {V : Wing} (hw : mkWing name side d = .ok V) :
    (side = "both" ∧ V = .both (mkSeg ("left_" ++ name) .left d) (mkSeg ("right_" ++ name) .right d)) ∨
    (side = "right" ∧ V = .onlyRight (mkSeg ("right_" ++ name) .right d)) ∨
    (side = "left" ∧ V = .onlyLeft (mkSeg ("left_" ++ name) .left d)) := by
  unfold mkWing at hw
  split_ifs at hw with h1 h2 h3
  · exact .inl ⟨h1, (Except.ok.inj hw).symm⟩
  · exact .inr (.inl ⟨h2, (Except.ok.inj hw).symm⟩)
  · exact .inr (.inr ⟨h3, (Except.ok.inj hw).symm⟩)

/-- the segments the calls make -/
theorem mkSeg_cut (N : ℕ) (d : WingDims) {n k : ℕ} (hn : d.grid.getD 40 = n) (hk : 0 < k) (hkn : k < n) (hx : x = (k : ℝ) / n)
    (a b c : String) (sd : Side) (f : Seg → Seg) (hf : (f = id) ∨ ∃ t loc, (∀ j, t = .wing j → j < N) ∧ f = (·.connectTo t loc)) :
    CutSeg N x (f (mkSeg a sd d)) (f (mkSeg b sd (d.inner x k)))
      ((mkSeg c sd (d.outer x (n - k))).connectTo (.wing N) "tip") := by
  have hnn : (n : ℝ) ≠ 0 := by
    have : 0 < n := by omega
    positivity
  have base : CutSeg N x (mkSeg a sd d) (mkSeg b sd (d.inner x k)) ((mkSeg c sd (d.outer x (n - k))).connectTo (.wing N) "tip") :=
    { n := ⟨hk, by simp [mkSeg, Seg.connectTo, WingDims.outer]; omega,
        by simp [mkSeg, Seg.connectTo, WingDims.outer, WingDims.inner, hn]; omega,
        by simp [mkSeg, Seg.connectTo, WingDims.outer, WingDims.inner, hn, hx]⟩
      side := ⟨rfl, rfl⟩
      main := ⟨rfl, rfl⟩
      parent := ⟨rfl, rfl⟩
      connect := ⟨rfl, rfl⟩
      low := by intro j hj; simp [mkSeg] at hj
      dpos := ⟨rfl, rfl⟩
      yoffset := ⟨rfl, rfl⟩
      span := ⟨rfl, rfl⟩
      rootChord := ⟨rfl, rfl⟩
      tipChord := ⟨rfl, by simp [mkSeg, Seg.connectTo, WingDims.outer, WingDims.chordAt]⟩
      sweep := ⟨rfl, rfl⟩
      dihedral := ⟨rfl, rfl⟩
      mount := ⟨rfl, rfl⟩
      washout := ⟨rfl, rfl⟩
      foil := ⟨rfl, rfl, rfl, rfl, rfl⟩
      surf := .inr ⟨rfl, rfl, rfl⟩ }
  rcases hf with rfl | ⟨t, loc, ht, rfl⟩
  · exact base
  · exact { base with parent := ⟨rfl, rfl⟩, connect := ⟨rfl, rfl⟩, low := ht }

/-- the two ways to add the wing -/
theorem cut_add {p : Plane} (hp : PlaneInv p) (hnd : (p.wings.map (·.1)).Nodup) {parent : Option String} {location side : String}
    {d : WingDims} {n k : ℕ} (hside : side = "both" ∨ side = "left" ∨ side = "right") (hw0 : w ≠ "") (hww : w ≠ w')
    (hw : w ∉ p.wings.map (·.1)) (hw' : w' ∉ p.wings.map (·.1)) (hpar : parent ≠ some w)
    (hn : d.grid.getD 40 = n) (hk : 0 < k) (hkn : k < n) (hx : x = (k : ℝ) / n) :
    PlaneCut p.heap.length x w w' (runOps p [.addWing w parent location side d])
      (runOps p [.addWing w parent location side (d.inner x k), .addWing w' (some w) "tip" side (d.outer x (n - k))]) := by
  have hmk : ∀ (nm : String) (d : WingDims), ∃ W, mkWing nm side d = .ok W := by
    rcases hside with rfl | rfl | rfl <;> exact fun _ _ => ⟨_, rfl⟩
  obtain ⟨W, hW⟩ := hmk w d
  obtain ⟨Wi, hWi⟩ := hmk w (d.inner x k)
  obtain ⟨Wo, hWo⟩ := hmk w' (d.outer x (n - k))
  have gw : dictGet p.wings w = none := by
    rw [mem_keys_iff] at hw; simpa using hw
  have gw' : dictGet p.wings w' = none := by
    rw [mem_keys_iff] at hw'; simpa using hw'
  obtain ⟨V, e, hV⟩ := addWing_run p w parent location side d hW
  obtain ⟨Vi, ei, hVi⟩ := addWing_run p w parent location side (d.inner x k) hWi
  obtain ⟨Vo, eo, hVo⟩ := addWing_run { p with heap := p.heap ++ [Vi], wings := dictSet p.wings w p.heap.length }
    w' (some w) "tip" side (d.outer x (n - k)) hWo
  simp only [runOps, List.foldl_cons, List.foldl_nil]
  rw [e, ei, eo]
  simp only [List.length_append, List.length_cons, List.length_nil, zero_add] at hVo ⊢
  have htar : targetOf (dictSet (dictSet p.wings w p.heap.length) w' (p.heap.length + 1)) (some w) = .ok (.wing p.heap.length) := by
    unfold targetOf
    simp only [dictGet_ne _ _ hww, dictGet_dictSet, if_true]
  rw [htar] at hVo
  simp only at hVo
  -- the function applied to the segments of the wing
  have hf : ∃ f : Seg → Seg, (f = id ∨ ∃ t loc, (∀ j, t = .wing j → j < p.heap.length) ∧ f = (·.connectTo t loc)) ∧
      V = W.mapSegs f ∧ Vi = Wi.mapSegs f := by
    cases ht : targetOf (dictSet p.wings w p.heap.length) parent with
    | error er =>
      refine ⟨id, .inl rfl, ?_, ?_⟩
      · rw [hV, ht]; cases W <;> rfl
      · rw [hVi, ht]; cases Wi <;> rfl
    | ok t =>
      refine ⟨(·.connectTo t location), .inr ⟨t, location, ?_, rfl⟩, by rw [hV, ht], by rw [hVi, ht]⟩
      intro j hj
      subst hj
      unfold targetOf at ht
      cases parent with
      | none => simp at ht
      | some q =>
        have hq : q ≠ w := fun hc => hpar (by rw [hc])
        by_cases hq0 : q = ""
        · subst hq0; simp at ht
        · simp only [hq0, dictGet_ne _ _ hq] at ht
          cases hg : dictGet p.wings q with
          | none => rw [hg] at ht; simp at ht
          | some i =>
            rw [hg] at ht
            simp at ht
            subst ht
            exact hp.ids _ (dictGet_mem hg)
  obtain ⟨f, hf, rfl, rfl⟩ := hf
  have hcut : CutWing p.heap.length x (W.mapSegs f) (Wi.mapSegs f) Vo := by
    rw [hVo]
    rcases addWing_none_eq hW with ⟨s1, e1⟩ | ⟨s1, e1⟩ | ⟨s1, e1⟩ <;>
    rcases addWing_none_eq hWi with ⟨s2, e2⟩ | ⟨s2, e2⟩ | ⟨s2, e2⟩ <;>
    rcases addWing_none_eq hWo with ⟨s3, e3⟩ | ⟨s3, e3⟩ | ⟨s3, e3⟩ <;>
    first
    | (exfalso; rw [s1] at s2; revert s2; decide)
    | (exfalso; rw [s1] at s3; revert s3; decide)
    | (rw [e1, e2, e3]
       first
       | exact .both (mkSeg_cut _ d hn hk hkn hx _ _ _ _ f hf) (mkSeg_cut _ d hn hk hkn hx _ _ _ _ f hf)
       | exact .onlyRight (mkSeg_cut _ d hn hk hkn hx _ _ _ _ f hf)
       | exact .onlyLeft (mkSeg_cut _ d hn hk hkn hx _ _ _ _ f hf))
  have hren : ∀ (j : ℕ) (V : Wing), p.heap[j]? = some V → V.mapSegs (Seg.ren (shiftId p.heap.length)) = V := by
    intro j V hV
    have hj : j < p.heap.length := (List.getElem?_eq_some_iff.1 hV).1
    have hpl := (hp.wing j V hV).parent_le
    have hs : ∀ s ∈ V.segments, Seg.ren (shiftId p.heap.length) s = s := by
      intro s hs
      have : s.parent.ren (shiftId p.heap.length) = s.parent := by
        cases hps : s.parent with
        | none => rfl
        | plane => rfl
        | wing i => simp only [Parent.ren]; rw [shiftId_lt (by have := hpl s hs i hps; omega)]
      simp only [Seg.ren, this]
    cases V with
    | both l r => simp only [Wing.mapSegs, hs l (by simp [Wing.segments]), hs r (by simp [Wing.segments])]
    | onlyLeft l => simp only [Wing.mapSegs, hs l (by simp [Wing.segments])]
    | onlyRight r => simp only [Wing.mapSegs, hs r (by simp [Wing.segments])]
  have hold : ∀ q, (dictGet p.wings q).map (shiftId p.heap.length) = dictGet p.wings q := by
    intro q
    cases hq : dictGet p.wings q with
    | none => rfl
    | some i => simp only [Option.map_some, Option.some.injEq]; exact shiftId_lt (hp.ids _ (dictGet_mem hq))
  exact
    { len := by simp
      low := by simp
      heap := by
        intro j hj
        rcases Nat.lt_or_ge j p.heap.length with hlt | hge
        · rw [shiftId_lt hlt, List.append_assoc, List.getElem?_append_left hlt, List.getElem?_append_left hlt]
          cases hV : p.heap[j]? with
          | none => rfl
          | some V => simp only [Option.map_some, hren j V hV]
        · rw [shiftId_ge hge, List.getElem?_eq_none (by simp; omega), List.getElem?_eq_none (by simp; omega)]
          rfl
      cut := ⟨_, _, _, by simp, by simp, by simp, hcut⟩
      nodup := nodup_dictSet _ _ _ hnd
      nodup' := nodup_dictSet _ _ _ (nodup_dictSet _ _ _ hnd)
      own := by
        constructor
        · rw [dictGet_dictSet, if_pos rfl]
        · rw [dictGet_ne _ _ hww, dictGet_dictSet, if_pos rfl]
      new := by
        constructor
        · rw [dictGet_ne _ _ hww.symm, gw']
        · rw [dictGet_dictSet, if_pos rfl]
      only := by
        intro q hq
        by_contra hne
        rw [dictGet_ne _ _ hne] at hq
        exact absurd (hp.ids _ (dictGet_mem hq)) (by simp)
      get := by
        intro q h1 h2
        rw [dictGet_ne _ _ h2, dictGet_ne _ _ h1, hold]
      cg := rfl
      position := rfl }

/-! ### positions -/

theorem segPosition_self {p : Plane} (hp : PlaneInv p) {b : ℕ} {V : Wing} (hb : p.heap[b]? = some V) {s : Seg}
    (hs : s ∈ V.segments) (hpar : s.parent = .wing b) {q : Seg × TipAt} (hc : connTarget p s = .ok (some q)) (t : TipAt) :
    p.segPosition s t = .error .recursion := by
  have hqs := connTarget_self hp hb hs hpar (q := q.1) (t := q.2) hc
  have hrec : ∀ f t', segPos p f s t' = .error .recursion := by
    intro f
    induction f with
    | zero => intro t'; rfl
    | succ f ih =>
      intro t'
      rw [segPos_succ, hc]
      simp only [hqs, ih]
  exact hrec _ _

/-- position the segment is attached to -/
noncomputable def attachPos (p : Plane) (s : Seg) : Except PyErr V3 :=
  match connTarget p s with
  | .error e => .error e
  | .ok none => .ok (basePos p s)
  | .ok (some q) => p.segPosition q.1 q.2

theorem segPosition_attach {p : Plane} (hp : PlaneInv p) {b : ℕ} {V : Wing} (hb : p.heap[b]? = some V) {s : Seg}
    (hs : s ∈ V.segments) (t : TipAt) : p.segPosition s t = offFrom (s.tipOffset t) (attachPos p s) := by
  rw [segPosition_succ hp hb hs t]
  unfold attachPos
  cases connTarget p s with
  | error e => rfl
  | ok o =>
    cases o with
    | none => rfl
    | some q =>
      simp only
      cases p.segPosition q.1 q.2 <;> rfl

theorem basePos_eq {p p' : Plane} (h : p'.position = p.position) {s s' : Seg} (hs : s'.parent = s.parent ∨
    ∃ i j, s'.parent = .wing i ∧ s.parent = .wing j) : basePos p' s' = basePos p s := by
  unfold basePos
  rcases hs with hs | ⟨i, j, h1, h2⟩
  · rw [hs]; simp only [Plane.getPosition, h]
  · rw [h1, h2]

theorem PlaneCut.shape {W Wi Wo : Wing} (h : CutWing N x W Wi Wo) :
    (∀ q, W.leftSeg = some q → ∃ i o, Wi.leftSeg = some i ∧ Wo.leftSeg = some o ∧ CutSeg N x q i o) ∧
    (∀ q, W.rightSeg = some q → ∃ i o, Wi.rightSeg = some i ∧ Wo.rightSeg = some o ∧ CutSeg N x q i o) ∧
    (W.leftSeg = none → Wi.leftSeg = none ∧ Wo.leftSeg = none) ∧ (W.rightSeg = none → Wi.rightSeg = none ∧ Wo.rightSeg = none) := by
  cases h with
  | both hl hr =>
    simp [Wing.leftSeg, Wing.rightSeg, hl, hr]
  | onlyLeft hl => simp [Wing.leftSeg, Wing.rightSeg, hl]
  | onlyRight hr => simp [Wing.leftSeg, Wing.rightSeg, hr]

theorem CutWing.mem {W Wi Wo : Wing} (h : CutWing N x W Wi Wo) {s : Seg} (hs : s ∈ W.segments) :
    ∃ i o, i ∈ Wi.segments ∧ o ∈ Wo.segments ∧ CutSeg N x s i o := by
  cases h with
  | both hl hr =>
    simp only [Wing.segments, List.mem_cons, List.not_mem_nil, or_false] at hs
    rcases hs with rfl | rfl
    · exact ⟨_, _, by simp [Wing.segments], by simp [Wing.segments], hl⟩
    · exact ⟨_, _, by simp [Wing.segments], by simp [Wing.segments], hr⟩
  | onlyLeft hl =>
    simp only [Wing.segments, List.mem_cons, List.not_mem_nil, or_false] at hs
    subst hs
    exact ⟨_, _, by simp [Wing.segments], by simp [Wing.segments], hl⟩
  | onlyRight hr =>
    simp only [Wing.segments, List.mem_cons, List.not_mem_nil, or_false] at hs
    subst hs
    exact ⟨_, _, by simp [Wing.segments], by simp [Wing.segments], hr⟩

theorem ren_low {s : Seg} {j : ℕ} (hj : j < N) (h : ∀ i, s.parent = .wing i → i ≤ j) : s.ren (shiftId N) = s := by
  have : s.parent.ren (shiftId N) = s.parent := by
    cases hps : s.parent with
    | none => rfl
    | plane => rfl
    | wing i => simp only [Parent.ren]; rw [shiftId_lt (by have := h i hps; omega)]
  simp only [Seg.ren, this]

theorem PlaneCut.positions {p p' : Plane} (h : PlaneCut N x w w' p p') (hp : PlaneInv p) (hp' : PlaneInv p') :
    ∀ (j : ℕ) (V : Wing), p.heap[j]? = some V →
      (j ≠ N → ∀ s ∈ V.segments, ∀ t, p'.segPosition (s.ren (shiftId N)) t = p.segPosition s t) ∧
      (j = N → ∀ Wi Wo, p'.heap[N]? = some Wi → p'.heap[N + 1]? = some Wo → ∀ s i o, s ∈ V.segments → i ∈ Wi.segments →
        o ∈ Wo.segments → CutSeg N x s i o → ∃ base, CutPos p p' s i o base) := by
  obtain ⟨W, Wi, Wo, hW, hWi, hWo, hcut⟩ := h.cut
  intro j
  induction j using Nat.strong_induction_on with
  | _ j ih =>
    intro V hV
    constructor
    · intro hj s hs t
      have hV' : p'.heap[shiftId N j]? = some (V.mapSegs (Seg.ren (shiftId N))) := by rw [h.heap j hj, hV]; rfl
      have hs' : s.ren (shiftId N) ∈ (V.mapSegs (Seg.ren (shiftId N))).segments := by
        cases V <;> simp [Wing.mapSegs, Wing.segments] at hs ⊢ <;> aesop
      rw [segPosition_attach hp hV hs, segPosition_attach hp' hV' hs']
      have htip : (s.ren (shiftId N)).tipOffset t = s.tipOffset t := rfl
      rw [htip]
      congr 1
      have hbase : basePos p' (s.ren (shiftId N)) = basePos p s := by
        apply basePos_eq h.position
        simp only [Seg.ren]
        cases s.parent with
        | none => exact .inl rfl
        | plane => exact .inl rfl
        | wing i => exact .inr ⟨_, _, rfl, rfl⟩
      unfold attachPos
      -- the connection
      cases hps : s.parent with
      | none =>
        have e1 : connTarget p s = .ok none := by unfold connTarget; rw [hps]
        have e2 : connTarget p' (s.ren (shiftId N)) = .ok none := by
          unfold connTarget; simp only [Seg.ren, hps, Parent.ren]
        rw [e1, e2]; simp only [hbase]
      | plane =>
        have e1 : connTarget p s = .ok none := by unfold connTarget; rw [hps]
        have e2 : connTarget p' (s.ren (shiftId N)) = .ok none := by
          unfold connTarget; simp only [Seg.ren, hps, Parent.ren]
        rw [e1, e2]; simp only [hbase]
      | wing i =>
        have hle := (hp.wing j V hV).parent_le s hs i hps
        obtain ⟨loc, hloc⟩ := (hp.wing j V hV).connect s hs (by rw [hps]; simp)
        by_cases hiN : i = N
        · -- connected to the wing that was cut
          subst hiN
          have hij : i < j := lt_of_le_of_ne hle (fun hc => hj hc.symm)
          obtain ⟨sl, sr, snl, snr⟩ := PlaneCut.shape hcut
          unfold connTarget
          simp only [Seg.ren, hps, Parent.ren, shiftId_ge le_rfl, hW, hWo]
          have hofs : TipAt.ofStr s.connectAt = if loc = "tip" then .ok s.side.tip else .error .runtime := by
            rw [hloc]
            cases s.side
            · exact ofStr_left loc
            · exact ofStr_right loc
          rw [hofs]
          by_cases hl : loc = "tip"
          · rw [if_pos hl]
            cases hsd : s.side with
            | left =>
              simp only [Side.tip]
              cases hq : W.leftSeg with
              | none => rw [(snl hq).2]
              | some q =>
                obtain ⟨qi, qo, h1, h2, h3⟩ := sl q hq
                rw [h2]
                simp only
                have hqs : q.side = .left := leftSeg_side (hp.wing i W hW) hq
                have hqm : q ∈ W.segments := by cases W <;> simp_all [Wing.leftSeg, Wing.segments]
                have him : qi ∈ Wi.segments := by cases Wi <;> simp_all [Wing.leftSeg, Wing.segments]
                have hom : qo ∈ Wo.segments := by cases Wo <;> simp_all [Wing.leftSeg, Wing.segments]
                obtain ⟨base, hb⟩ := (ih i hij W hW).2 rfl Wi Wo hWi hWo q qi qo hqm him hom h3
                have := hb.tip h3
                rwa [hqs] at this
            | right =>
              simp only [Side.tip]
              cases hq : W.rightSeg with
              | none => rw [(snr hq).2]
              | some q =>
                obtain ⟨qi, qo, h1, h2, h3⟩ := sr q hq
                rw [h2]
                simp only
                have hqs : q.side = .right := rightSeg_side (hp.wing i W hW) hq
                have hqm : q ∈ W.segments := by cases W <;> simp_all [Wing.rightSeg, Wing.segments]
                have him : qi ∈ Wi.segments := by cases Wi <;> simp_all [Wing.rightSeg, Wing.segments]
                have hom : qo ∈ Wo.segments := by cases Wo <;> simp_all [Wing.rightSeg, Wing.segments]
                obtain ⟨base, hb⟩ := (ih i hij W hW).2 rfl Wi Wo hWi hWo q qi qo hqm him hom h3
                have := hb.tip h3
                rwa [hqs] at this
          · rw [if_neg hl]
        · have hc : connTarget p' (s.ren (shiftId N)) =
              (connTarget p s).map (·.map fun q => (q.1.ren (shiftId N), q.2)) := by
            unfold connTarget
            simp only [Seg.ren, hps, Parent.ren, h.heap i hiN]
            cases p.heap[i]? with
            | none => rfl
            | some w =>
              simp only [Option.map_some]
              cases TipAt.ofStr s.connectAt with
              | error e => rfl
              | ok t => cases t <;> cases w <;> rfl
          rw [hc]
          cases hct : connTarget p s with
          | error e => rfl
          | ok o =>
            cases o with
            | none => simp only [Except.map, Option.map_none, hbase]
            | some q =>
              simp only [Except.map, Option.map_some]
              obtain ⟨id, wq, hpar, hwq, hqm, _⟩ := connTarget_mem (q := q.1) (t := q.2) hct
              have hid : id = i := by rw [hps] at hpar; simpa using hpar.symm
              subst hid
              rcases Nat.lt_or_ge id j with hlt | hge
              · exact (ih id hlt wq hwq).1 hiN q.1 hqm q.2
              · have hidj : id = j := by omega
                subst hidj
                have hq : q.1 = s := connTarget_self hp hV hs hps (q := q.1) (t := q.2) hct
                rw [hq]
                rw [segPosition_self hp hV hs hps hct]
                have hps' : (s.ren (shiftId N)).parent = .wing (shiftId N id) := by simp only [Seg.ren, hps, Parent.ren]
                have hct' : connTarget p' (s.ren (shiftId N)) = .ok (some (q.1.ren (shiftId N), q.2)) := by
                  rw [hc, hct]; rfl
                rw [segPosition_self hp' hV' hs' hps' hct']
    · rintro rfl Wi' Wo' hWi' hWo' s i o hs hi ho hcs
      refine ⟨attachPos p s, fun t => segPosition_attach hp hV hs t, fun t => ?_, fun t => ?_⟩
      · rw [segPosition_attach hp' hWi' hi]
        congr 1
        have hbase : basePos p' i = basePos p s := basePos_eq h.position (.inl hcs.parent.1)
        unfold attachPos
        have hc : connTarget p' i = connTarget p s := by
          unfold connTarget
          rw [hcs.parent.1, hcs.connect.1]
          cases hps : s.parent with
          | none => rfl
          | plane => rfl
          | wing m =>
            have hm := hcs.low m hps
            have := h.heap m hm.ne
            rw [shiftId_lt hm] at this
            simp only
            rw [this]
            cases hpm : p.heap[m]? with
            | none => rfl
            | some wm =>
              have hren : wm.mapSegs (Seg.ren (shiftId j)) = wm := by
                have hpl := (hp.wing m wm hpm).parent_le
                have hss : ∀ s ∈ wm.segments, s.ren (shiftId j) = s := fun s hs => ren_low hm (hpl s hs)
                cases wm with
                | both l r => simp only [Wing.mapSegs, hss l (by simp [Wing.segments]), hss r (by simp [Wing.segments])]
                | onlyLeft l => simp only [Wing.mapSegs, hss l (by simp [Wing.segments])]
                | onlyRight r => simp only [Wing.mapSegs, hss r (by simp [Wing.segments])]
              simp only [Option.map_some, hren]
        rw [hc, hbase]
        cases hct : connTarget p s with
        | error e => rfl
        | ok oo =>
          cases oo with
          | none => rfl
          | some q =>
            simp only
            obtain ⟨m, wm, hps, hpm, hqm, _⟩ := connTarget_mem (q := q.1) (t := q.2) hct
            have hm := hcs.low m hps
            have := (ih m hm wm hpm).1 hm.ne q.1 hqm q.2
            rw [ren_low hm ((hp.wing m wm hpm).parent_le q.1 hqm)] at this
            exact this
      · rw [segPosition_attach hp' hWo' ho]
        congr 1
        unfold attachPos connTarget
        rw [hcs.parent.2, hcs.connect.2]
        simp only [hWi']
        obtain ⟨g1, g2⟩ := seg_of_side (hp'.wing j Wi' hWi') hi
        cases hsd : s.side with
        | left =>
          have := g1 (by rw [hcs.side.1, hsd])
          simp only [Side.str, ofStr_left, if_true, this, Side.tip]
        | right =>
          have := g2 (by rw [hcs.side.1, hsd])
          simp only [Side.str, ofStr_right, if_true, this, Side.tip]

/-! ### the grid -/

def segsAt (p : Plane) (j : ℕ) : List Seg :=
  match p.heap[j]? with
  | none => []
  | some V => V.segments

theorem segments_segsAt (p : Plane) : p.segments = p.wings.flatMap fun kv => segsAt p kv.2 := by
  rw [segments_eq]
  unfold Plane.wingList
  generalize p.wings = ws
  induction ws with
  | nil => rfl
  | cons kv t ih =>
    cases hk : p.heap[kv.2]? with
    | none => simp [hk, ih, segsAt]
    | some w => simp [hk, ih, segsAt]

theorem dictGet_filter {α : Type*} (d : List (String × α)) (w k : String) :
    dictGet (d.filter (fun kv => kv.1 ≠ w)) k = if k = w then none else dictGet d k := by
  induction d with
  | nil => simp [dictGet]
  | cons a t ih =>
    by_cases ha : a.1 = w
    · rw [List.filter_cons_of_neg (by simp [ha]), ih]
      by_cases hk : k = w
      · simp [hk]
      · have : a.1 ≠ k := fun hc => hk (by rw [← hc, ha])
        simp [hk, dictGet, this]
    · rw [List.filter_cons_of_pos (by simp [ha])]
      simp only [dictGet, ih]
      by_cases hk : k = w
      · have : a.1 ≠ k := fun hc => ha (by rw [hc, hk])
        simp [hk, ha]
      · simp [hk]

theorem PlaneCut.segments {p p' : Plane} (h : PlaneCut N x w w' p p') :
    ∃ R : List Seg, (∀ s ∈ R, ∃ j V, j ≠ N ∧ p.heap[j]? = some V ∧ s ∈ V.segments) ∧ p.segments.Perm (segsAt p N ++ R) ∧
      p'.segments.Perm (segsAt p' N ++ (segsAt p' (N + 1) ++ R.map (Seg.ren (shiftId N)))) := by
  have hww : w ≠ w' := by
    intro hc
    have := h.own.1
    rw [hc, h.new.1] at this
    cases this
  set L := p.wings.filter (fun kv => kv.1 ≠ w) with hL
  have hLn : (L.map (·.1)).Nodup := (List.filter_sublist.map _).nodup h.nodup
  have hwL : w ∉ L.map (·.1) := by
    rw [mem_keys_iff, hL, dictGet_filter]; simp
  have hw'L : w' ∉ L.map (·.1) := by
    rw [mem_keys_iff, hL, dictGet_filter, h.new.1]; simp
  have h1 : p.wings.Perm ((w, N) :: L) := by
    refine dict_perm h.nodup (by simp only [List.map_cons, List.nodup_cons]; exact ⟨hwL, hLn⟩) fun k => ?_
    simp only [dictGet, hL, dictGet_filter]
    by_cases hk : w = k
    · subst hk; simp [h.own.1]
    · simp [hk, Ne.symm hk]
  have hkey : (L.map fun kv => (kv.1, shiftId N kv.2)).map (·.1) = L.map (·.1) := by rw [List.map_map]; rfl
  have h2 : p'.wings.Perm ((w, N) :: (w', N + 1) :: L.map fun kv => (kv.1, shiftId N kv.2)) := by
    refine dict_perm h.nodup' ?_ fun k => ?_
    · simp only [List.map_cons, List.nodup_cons, List.mem_cons, hkey]
      exact ⟨by simp only [not_or]; exact ⟨hww, hwL⟩, hw'L, hLn⟩
    · simp only [dictGet, dictGet_map, hL, dictGet_filter]
      by_cases hk : w = k
      · subst hk; simp [h.own.2]
      · by_cases hk' : w' = k
        · subst hk'; simp [h.new.2, hk]
        · simp [hk, hk', h.get k (Ne.symm hk) (Ne.symm hk'), Ne.symm hk]
  have hne : ∀ kv ∈ L, kv.2 ≠ N := by
    rintro ⟨k, j⟩ hkv rfl
    rw [mem_iff_dictGet hLn, hL, dictGet_filter] at hkv
    split_ifs at hkv with hk
    exact hk (h.only k hkv)
  refine ⟨L.flatMap fun kv => segsAt p kv.2, ?_, ?_, ?_⟩
  · intro s hs
    obtain ⟨kv, hkv, hs⟩ := List.mem_flatMap.1 hs
    unfold segsAt at hs
    cases hV : p.heap[kv.2]? with
    | none => rw [hV] at hs; simp at hs
    | some V => rw [hV] at hs; exact ⟨kv.2, V, hne kv hkv, hV, hs⟩
  · rw [segments_segsAt]
    exact h1.flatMap_right _
  · rw [segments_segsAt]
    refine (h2.flatMap_right _).trans (List.Perm.of_eq ?_)
    simp only [List.flatMap_cons, List.flatMap_map, List.map_flatMap]
    congr 2
    apply List.flatMap_congr
    intro kv hkv
    unfold segsAt
    rw [h.heap kv.2 (hne kv hkv)]
    cases p.heap[kv.2]? with
    | none => rfl
    | some V => cases V <;> rfl

theorem segSecs_ok {p : Plane} {c : Bool} {s : Seg} {v : List GridSec} (h : segData p c s = .ok v) : segSecs p c s = v := by
  unfold segSecs; rw [h]

theorem SamePanel.rfl' (s : Section) : SamePanel s s :=
  ⟨rfl, rfl, rfl, rfl, rfl, rfl, rfl, rfl, rfl, rfl, rfl, rfl, rfl, .inl rfl, rfl, rfl, rfl, rfl, rfl, rfl, rfl, rfl, rfl, rfl⟩

abbrev Panels (a b : GridSec) : Prop := SamePanel a.toSection b.toSection

theorem listImage_refl (A : List GridSec) : ListImage Panels A A :=
  ⟨A, List.forall₂_same.2 fun a _ => SamePanel.rfl' _, .refl _⟩

/-- area of a list of sections -/
noncomputable def areaOf (s : Seg) (v : List GridSec) : ℝ := if s.isMain then (v.map (·.area)).sum else 0

/-- the sections of the wing and of its pieces -/
theorem CutWing.secs {p p' : Plane} {W Wi Wo : Wing} (h : CutWing N x W Wi Wo)
    (hpos : ∀ s i o, s ∈ W.segments → i ∈ Wi.segments → o ∈ Wo.segments → CutSeg N x s i o → ∃ base, CutPos p p' s i o base) :
    ((∀ s ∈ W.segments, ∃ v, segData p false s = .ok v) ↔
      (∀ s ∈ Wi.segments, ∃ v, segData p' false s = .ok v) ∧ ∀ s ∈ Wo.segments, ∃ v, segData p' false s = .ok v) ∧
    ((∀ s ∈ W.segments, ∃ v, segData p false s = .ok v) →
      ListImage Panels ((W.segments.flatMap (segSecs p false)).map GridSec.withIc2)
        ((Wi.segments.flatMap (segSecs p' false) ++ Wo.segments.flatMap (segSecs p' false)).map GridSec.withIc2) ∧
      (W.segments.map fun s => areaOf s (segSecs p false s)).sum =
        (Wi.segments.map fun s => areaOf s (segSecs p' false s)).sum + (Wo.segments.map fun s => areaOf s (segSecs p' false s)).sum) := by
  have one : ∀ s i o, s ∈ W.segments → i ∈ Wi.segments → o ∈ Wo.segments → CutSeg N x s i o →
      ((∃ v, segData p false s = .ok v) ↔ (∃ v, segData p' false i = .ok v) ∧ ∃ v, segData p' false o = .ok v) ∧
      ((∃ v, segData p false s = .ok v) →
        ListImage Panels ((segSecs p false s).map GridSec.withIc2)
          ((segSecs p' false i ++ segSecs p' false o).map GridSec.withIc2) ∧
        areaOf s (segSecs p false s) = areaOf i (segSecs p' false i) + areaOf o (segSecs p' false o)) := by
    intro s i o hs hi ho hc
    obtain ⟨base, hb⟩ := hpos s i o hs hi ho hc
    obtain ⟨h1, h2⟩ := hc.data hb
    refine ⟨h1, fun hv => ?_⟩
    obtain ⟨⟨vi, hvi⟩, vo, hvo⟩ := h1.1 hv
    obtain ⟨v, hv⟩ := hv
    have hF := h2 v vi vo hv hvi hvo
    rw [segSecs_ok hv, segSecs_ok hvi, segSecs_ok hvo]
    have hperm : (ordered s.side vi vo).Perm (vi ++ vo) := by
      cases s.side
      · exact List.perm_append_comm
      · exact .refl _
    refine ⟨⟨_, hF, hperm.map _⟩, ?_⟩
    have harea : (v.map (·.area)).sum = ((ordered s.side vi vo).map (·.area)).sum := by
      have e : ∀ l : List GridSec, l.map (·.area) = (l.map GridSec.withIc2).map (·.area) := by
        intro l; rw [List.map_map]; rfl
      rw [e v, e (ordered s.side vi vo)]
      congr 1
      generalize v.map GridSec.withIc2 = A at hF
      generalize (ordered s.side vi vo).map GridSec.withIc2 = B at hF
      induction hF with
      | nil => rfl
      | cons hab _ ih => simp only [List.map_cons, ih, hab.area]
    unfold areaOf
    rw [hc.main.1, hc.main.2, harea, (hperm.map _).sum_eq, List.map_append, List.sum_append]
    split_ifs <;> simp
  cases h with
  | @both l r li ri lo ro hl hr =>
    simp only [Wing.segments, List.mem_cons, List.not_mem_nil, or_false, forall_eq_or_imp, forall_eq, List.flatMap_cons,
      List.flatMap_nil, List.append_nil, List.map_cons, List.map_nil, List.sum_cons, List.sum_nil, add_zero] at one ⊢
    obtain ⟨a1, a2⟩ := one l li lo (.inl rfl) (.inl rfl) (.inl rfl) hl
    obtain ⟨b1, b2⟩ := one r ri ro (.inr rfl) (.inr rfl) (.inr rfl) hr
    refine ⟨?_, fun hv => ?_⟩
    · rw [a1, b1]
      clear a1 b1 a2 b2 one hpos
      exact ⟨fun ⟨⟨q1, q2⟩, q3, q4⟩ => ⟨⟨q1, q3⟩, q2, q4⟩, fun ⟨⟨q1, q3⟩, q2, q4⟩ => ⟨⟨q1, q2⟩, q3, q4⟩⟩
    obtain ⟨c1, c2⟩ := a2 hv.1
    obtain ⟨d1, d2⟩ := b2 hv.2
    refine ⟨?_, by rw [c2, d2]; ring⟩
    rw [List.map_append]
    refine (c1.append d1).perm ?_
    rw [← List.map_append]
    apply List.Perm.map
    simp only [List.append_assoc]
    apply List.Perm.append_left
    simp only [← List.append_assoc]
    apply List.Perm.append_right
    exact List.perm_append_comm
  | onlyLeft hl =>
    simp only [Wing.segments, List.mem_cons, List.not_mem_nil, or_false, forall_eq, List.flatMap_cons,
      List.flatMap_nil, List.append_nil, List.map_cons, List.map_nil, List.sum_cons, List.sum_nil, add_zero] at one ⊢
    exact one _ _ _ rfl rfl rfl hl
  | onlyRight hl =>
    simp only [Wing.segments, List.mem_cons, List.not_mem_nil, or_false, forall_eq, List.flatMap_cons,
      List.flatMap_nil, List.append_nil, List.map_cons, List.map_nil, List.sum_cons, List.sum_nil, add_zero] at one ⊢
    exact one _ _ _ rfl rfl rfl hl

/-- the grids of the two aircraft -/
theorem PlaneCut.grids {p p' : Plane} (h : PlaneCut N x w w' p p') (hp : PlaneInv p) (hp' : PlaneInv p') :
    ((∃ g, mkGrid p false = .ok g) ↔ ∃ g', mkGrid p' false = .ok g') ∧
    ∀ g g' : Grid, mkGrid p false = .ok g → mkGrid p' false = .ok g' →
      g'.refArea = g.refArea ∧ ListImage Panels g.data g'.data := by
  obtain ⟨R, hR, hs, hs'⟩ := h.segments
  obtain ⟨W, Wi, Wo, hW, hWi, hWo, hcut⟩ := h.cut
  have hpos := h.positions hp hp'
  obtain ⟨k1, k2⟩ := hcut.secs fun s i o h1 h2 h3 h4 => (hpos N W hW).2 rfl Wi Wo hWi hWo s i o h1 h2 h3 h4
  have e1 : segsAt p N = W.segments := by unfold segsAt; rw [hW]
  have e2 : segsAt p' N = Wi.segments := by unfold segsAt; rw [hWi]
  have e3 : segsAt p' (N + 1) = Wo.segments := by unfold segsAt; rw [hWo]
  rw [e1] at hs
  rw [e2, e3] at hs'
  have hother : ∀ s ∈ R, segData p' false (s.ren (shiftId N)) = segData p false s := by
    intro s hsR
    obtain ⟨j, V, hj, hV, hsV⟩ := hR s hsR
    have := (hpos j V hV).1 hj s hsV
    unfold segData
    rw [this, this]
    rfl
  have hsec : ∀ s ∈ R, segSecs p' false (s.ren (shiftId N)) = segSecs p false s := by
    intro s hsR; unfold segSecs; rw [hother s hsR]
  constructor
  · rw [mkGrid_iff, mkGrid_iff]
    simp only [hs.mem_iff, hs'.mem_iff, List.mem_append, or_imp, forall_and, List.mem_map, forall_exists_index, and_imp,
      forall_apply_eq_imp_iff₂]
    rw [k1, and_assoc]
    have : (∀ s ∈ R, ∃ v, segData p false s = .ok v) ↔ ∀ s ∈ R, ∃ v, segData p' false (s.ren (shiftId N)) = .ok v :=
      forall₂_congr fun s hsR => by rw [hother s hsR]
    rw [this]
  · intro g g' hg hg'
    obtain ⟨a1, a2⟩ := mkGrid_segSecs hg
    obtain ⟨b1, b2⟩ := mkGrid_segSecs hg'
    have hall := mkGrid_iff.1 ⟨g, hg⟩
    obtain ⟨c1, c2⟩ := k2 fun s hsW => hall s (hs.mem_iff.2 (List.mem_append_left _ hsW))
    rw [a1, a2, b1, b2]
    constructor
    · have f1 := (hs.map fun s => areaOf s (segSecs p false s)).sum_eq
      have f2 := (hs'.map fun s => areaOf s (segSecs p' false s)).sum_eq
      unfold areaOf at f1 f2 c2
      rw [f1, f2]
      simp only [List.map_append, List.sum_append, c2, List.map_map]
      rw [← add_assoc]
      congr 1
      congr 1
      apply List.map_congr_left
      intro s hsR
      simp only [Function.comp, hsec s hsR]
      rfl
    · have g1 : ((p.segments.flatMap (segSecs p false)).map GridSec.withIc2).Perm
          ((W.segments.flatMap (segSecs p false)).map GridSec.withIc2 ++ (R.flatMap (segSecs p false)).map GridSec.withIc2) := by
        rw [← List.map_append, ← List.flatMap_append]
        exact (hs.flatMap_right _).map _
      have g2 : ((Wi.segments.flatMap (segSecs p' false) ++ Wo.segments.flatMap (segSecs p' false)).map GridSec.withIc2 ++
          (R.flatMap (segSecs p false)).map GridSec.withIc2).Perm ((p'.segments.flatMap (segSecs p' false)).map GridSec.withIc2) := by
        rw [← List.map_append]
        apply List.Perm.map
        refine List.Perm.trans (List.Perm.of_eq ?_) (hs'.flatMap_right _).symm
        simp only [List.flatMap_append, List.append_assoc, List.flatMap_map]
        congr 2
        exact (List.flatMap_congr fun s hsR => (hsec s hsR)).symm
      obtain ⟨M, m1, m2⟩ := (c1.append (listImage_refl ((R.flatMap (segSecs p false)).map GridSec.withIc2))).perm g2
      obtain ⟨M', m3, m4⟩ := (List.perm_comp_forall₂ g1 m1 : Relation.Comp _ _ _ _)
      exact ⟨M', m3, m4.trans m2⟩

end Verif
