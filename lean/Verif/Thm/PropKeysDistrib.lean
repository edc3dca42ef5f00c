import Verif.Thm.PropKeys
import Verif.Thm.DistribRows

/-!
# Only the entries of a `prop_state` that have a meaning count for the tables of `distributions` (C153)
-/

namespace Verif
open V3 Act

section
variable {n : ℕ} {G : LLGeom (Fin n)} {wings props : Bool} {simps : List ℝ → List ℝ → ℝ} {fuel : ℕ} {Sw lat long : ℝ}
  {bad : Act (LLState (Fin n) × List (PropSlot (Fin n))) (Option Loads)}

theorem imitates_words_full {names : List String} (hb : ∀ st, (bad st).2.2.map PropSlot.name = st.2.map PropSlot.name) {ps ps' : Option PropDict}
    (h : SameForProps names (ps.getD []) (ps'.getD [])) :
    Imitates (fullBackend G wings props simps fuel Sw lat long bad) (fullBackend G wings props simps fuel Sw lat long bad) (SameNamed names) ps ps' where
  wings := rfl
  props := rfl
  Sw := rfl
  lat := rfl
  long := rfl
  propSolve := by
    rintro d ⟨l, sls⟩ s' ⟨rfl, hn⟩
    show Outcome Same ((fullBackend G wings props simps fuel Sw lat long bad).propSolve d ps (l, sls)).1
        ((fullBackend G wings props simps fuel Sw lat long bad).propSolve d ps' (l, sls)).1 ∧
      SameNamed names ((fullBackend G wings props simps fuel Sw lat long bad).propSolve d ps (l, sls)).2
        ((fullBackend G wings props simps fuel Sw lat long bad).propSolve d ps' (l, sls)).2
    unfold fullBackend
    simp only
    rw [propsSolve_words simps fuel _ _ hn h]
    exact ⟨Outcome.of_eq rfl, rfl, names_of_map (propsSolve_names simps fuel _ (some d) (ps.getD []) sls) hn⟩
  wingSolve := by
    rintro d c ⟨l, sls⟩ s' ⟨rfl, hn⟩
    exact ⟨Outcome.of_eq rfl, rfl, hn⟩
  stall := by
    rintro s s' ⟨rfl, -⟩
    rfl
  bad := by
    rintro ⟨l, sls⟩ s' ⟨rfl, hn⟩
    exact ⟨Outcome.of_eq rfl, rfl, names_of_map (hb _) hn⟩

/-- two objects in the same state -/
theorem distributions_words {names : List String} (hb : ∀ st, (bad st).2.2.map PropSlot.name = st.2.map PropSlot.name) {ps ps' : Option PropDict}
    (h : SameForProps names (ps.getD []) (ps'.getD [])) {w w' : World (fullBackend G wings props simps fuel Sw lat long bad)}
    (hw : Alongside (SameNamed names) w w') :
    (distributions G wings props simps fuel Sw lat long bad ps' w').1 = (distributions G wings props simps fuel Sw lat long bad ps w).1 := by
  have hL := (imitates_words_full (G := G) (wings := wings) (props := props) (simps := simps) (fuel := fuel) (Sw := Sw) (lat := lat) (long := long)
    hb h).solve w w' hw
  unfold distributions
  rcases hq : muSolve (B := fullBackend G wings props simps fuel Sw lat long bad) ps w with ⟨e | T, v⟩ <;>
    rcases hq' : muSolve (B := fullBackend G wings props simps fuel Sw lat long bad) ps' w' with ⟨e' | T', v'⟩ <;>
    rw [hq, hq'] at hL <;> obtain ⟨k1, k2⟩ := hL
  · rw [bind_of_error hq, bind_of_error hq']
    cases Outcome.to_eq k1
    rfl
  · cases Outcome.to_eq k1
  · cases Outcome.to_eq k1
  · rw [bind_of_ok hq, bind_of_ok hq', get_bind, get_bind]
    have hs : v'.st = v.st := k2.st.1
    rw [hs]
    rcases h1 : wingTable (show LLState (Fin n) × List (PropSlot (Fin n)) from v.st) G wings long with e | wt <;>
      rcases h2 : propTable (show LLState (Fin n) × List (PropSlot (Fin n)) from v.st) props with e2 | pt <;> rfl

/-- **C153, `distributions`.**  For an object in any state, with propellers of these names, `distributions` with two `prop_state`s that
differ only in entries that mean nothing to them has the same outcome: the same exception, or the same wing and propeller tables. -/
theorem C153_distributions {names : List String} (hb : ∀ st, (bad st).2.2.map PropSlot.name = st.2.map PropSlot.name) {ps ps' : Option PropDict}
    (h : SameForProps names (ps.getD []) (ps'.getD [])) (w : World (fullBackend G wings props simps fuel Sw lat long bad))
    (hn : ∀ sl ∈ (show LLState (Fin n) × List (PropSlot (Fin n)) from w.st).2, sl.name ∈ names) :
    (distributions G wings props simps fuel Sw lat long bad ps' w).1 = (distributions G wings props simps fuel Sw lat long bad ps w).1 := by
  exact distributions_words hb h ⟨rfl, rfl, rfl, rfl, hn⟩

/-- **C153, `distributions` after other calls.**  The same after two sequences of calls that differ only in such entries: `w0` is an object
with propellers of these names in any state. -/
theorem C153_distributions_after {names : List String} (hb : ∀ st, (bad st).2.2.map PropSlot.name = st.2.map PropSlot.name) (cg : V3)
    (w0 : World (fullBackend G wings props simps fuel Sw lat long bad))
    (hn : ∀ sl ∈ (show LLState (Fin n) × List (PropSlot (Fin n)) from w0.st).2, sl.name ∈ names)
    {hist hist' : List (Request (Fin n))} (hh : List.Forall₂ (Request.SameForProps names) hist hist')
    (a : Option (AeroDict (Fin n))) (c : Option CtrlDict) {ps ps' : Option PropDict} (h : SameForProps names (ps.getD []) (ps'.getD [])) :
    let call (r : Request (Fin n)) : AnyCall (fullBackend G wings props simps fuel Sw lat long bad) := ⟨r.what, r.aero, r.ctrl, r.ps⟩
    (distributions G wings props simps fuel Sw lat long bad ps' { afterCalls cg w0 (hist'.map call) with aero := a, ctrl := c }).1 =
      (distributions G wings props simps fuel Sw lat long bad ps { afterCalls cg w0 (hist.map call) with aero := a, ctrl := c }).1 := by
  intro call
  have key : ∀ w w' : World (fullBackend G wings props simps fuel Sw lat long bad), w'.files = w.files → SameNamed names w.st w'.st →
      (afterCalls cg w' (hist'.map call)).files = (afterCalls cg w (hist.map call)).files ∧
      SameNamed names (afterCalls cg w (hist.map call)).st (afterCalls cg w' (hist'.map call)).st := by
    induction hh with
    | nil => intro w w' hf k; exact ⟨hf, k⟩
    | @cons q q' l l' hq _ ih =>
      intro w w' hf k
      have hi : AnyCall.Imitated (SameNamed names) (call q) (call q') :=
        ⟨hq.what, hq.aero, hq.ctrl, imitates_words_full hb hq.ps⟩
      obtain ⟨-, k2⟩ := imitate_calls (B := fullBackend G wings props simps fuel Sw lat long bad) (B' := fullBackend G wings props simps fuel Sw lat long bad)
        (R := SameNamed names) cg (hist := []) (hist' := []) (.cons hi .nil) hf k
      exact ih _ _ k2.files k2.st
  obtain ⟨k1, k2⟩ := key w0 w0 rfl ⟨rfl, hn⟩
  exact distributions_words hb h (w := { afterCalls cg w0 (hist.map call) with aero := a, ctrl := c })
    (w' := { afterCalls cg w0 (hist'.map call) with aero := a, ctrl := c }) ⟨rfl, rfl, k1, k2⟩

end

-- an aircraft with a wing and the propeller "p": the misspelt entry "throttel" leaves both tables, which exist, as they are
example (bad : Act (LLState (Fin 2) × List (PropSlot (Fin 2))) (Option Loads))
    (hb : ∀ st, (bad st).2.2.map PropSlot.name = st.2.map PropSlot.name) :
    ∃ (w : World (pusher bad)) (t : List WingRow) (pt : List PropRow),
      (distributions exGeom true true (fun _ _ => 1) 1 1 1 1 bad (some [("throttel", .num 1), ("J", .num 0.5)]) w).1 = .ok (some t, some pt) := by
  obtain ⟨M, mem, T, w', -, h, -⟩ := pusher_run bad
  obtain ⟨t, pt, ht⟩ := distributions_of one_ne_zero h
  refine ⟨_, t, pt, (C153_distributions (names := ["p"]) hb (ps := some [("J", .num 0.5)]) ⟨⟨by simp, fun k hk => ?_⟩, fun n hn => ?_⟩ _ ?_).trans
    (congrArg Prod.fst ht)⟩
  · simp only [List.mem_cons, List.not_mem_nil, or_false] at hk
    rcases hk with rfl | rfl | rfl | rfl <;> simp [dictGet]
  · have hn : n = "p" := by simpa using hn
    subst hn
    have h1 : dictGet ((some [("J", PSVal.num 0.5)] : Option PropDict).getD []) "p" = none := by simp [dictGet]
    have h2 : dictGet ((some [("throttel", PSVal.num 1), ("J", .num 0.5)] : Option PropDict).getD []) "p" = none := by simp [dictGet]
    rw [h1, h2]
    exact .same _
  · intro sl hs
    have hs : sl ∈ [(⟨"p", M, { mem }, none⟩ : PropSlot (Fin 2))] := hs
    rw [List.mem_singleton] at hs
    subst hs
    simp

-- the same after a solve with and without such an entry
example (bad : Act (LLState (Fin 2) × List (PropSlot (Fin 2))) (Option Loads))
    (hb : ∀ st, (bad st).2.2.map PropSlot.name = st.2.map PropSlot.name) (M : PropM (Fin 2)) (mem : ℕ → ℕ → Option ℝ) :
    let w0 : World (pusher bad) := { st := (LLState.init _, [⟨"p", M, { mem }, none⟩]), aero := none, ctrl := none }
    let call (ps : PropDict) : AnyCall (pusher bad) := ⟨.solve none, some exAero, some exCtrl, some ps⟩
    (distributions exGeom true true (fun _ _ => 1) 1 1 1 1 bad (some [("throttel", .num 1), ("J", .num 0.5)])
        { afterCalls 0 w0 [call [("throttel", .num 2), ("J", .num 0.5)]] with aero := some exAero, ctrl := some exCtrl }).1 =
      (distributions exGeom true true (fun _ _ => 1) 1 1 1 1 bad (some [("J", .num 0.5)])
        { afterCalls 0 w0 [call [("J", .num 0.5)]] with aero := some exAero, ctrl := some exCtrl }).1 := by
  intro w0 call
  have hs : ∀ x : ℝ, SameForProps ["p"] [("J", .num 0.5)] [("throttel", .num x), ("J", .num 0.5)] := by
    refine fun x => ⟨⟨by simp, fun k hk => ?_⟩, fun n hn => ?_⟩
    · simp only [List.mem_cons, List.not_mem_nil, or_false] at hk
      rcases hk with rfl | rfl | rfl | rfl <;> simp [dictGet]
    · have hn : n = "p" := by simpa using hn
      subst hn
      have h1 : dictGet [("J", PSVal.num 0.5)] "p" = none := by simp [dictGet]
      have h2 : dictGet [("throttel", PSVal.num x), ("J", .num 0.5)] "p" = none := by simp [dictGet]
      rw [h1, h2]
      exact .same _
  refine C153_distributions_after (names := ["p"]) hb 0 w0 ?_ (hist := [⟨.solve none, some exAero, some exCtrl, some [("J", .num 0.5)]⟩])
    (hist' := [⟨.solve none, some exAero, some exCtrl, some [("throttel", .num 2), ("J", .num 0.5)]⟩]) (.cons ⟨rfl, rfl, rfl, hs 2⟩ .nil)
    (some exAero) (some exCtrl) (hs 1)
  intro sl h
  have h : sl ∈ [(⟨"p", M, { mem }, none⟩ : PropSlot (Fin 2))] := h
  rw [List.mem_singleton] at h
  subst h
  simp

end Verif
