import Verif.Spec.MUFiles
import Verif.Thm.MUDefaults
import Verif.Thm.AeroCenter
import Verif.Thm.MUFull

/-!
# Output files of the analyses (C102)
-/

namespace Verif
open Act

variable {ι : Type} {B : Backend ι} {ps : Option B.π}

/-- the list of files is a friendly observation -/
theorem friendly_files : Friendly (World.files : World B → _) where
  st := fun _ _ => rfl
  objs := fun _ _ => rfl
  field := fun _ _ _ _ => rfl
  swapA := fun _ _ _ h => h.symm
  swapC := fun _ _ _ h => h.symm

theorem files_setAero (f : AeroDict ι → AeroDict ι) : Keeps World.files (setAero f : Act (World B) Unit) :=
  keeps_setAero fun _ _ _ => rfl
theorem files_setCtrl (f : CtrlDict → CtrlDict) : Keeps World.files (setCtrl f : Act (World B) Unit) :=
  keeps_setCtrl fun _ _ _ => rfl

theorem files_liftAt (d : AeroDict ι) (x : Option ℝ) : Keeps World.files (liftAt ps d x : Act (World B) _) := by
  unfold liftAt
  cases x
  · exact Keeps.bind (keeps_onSolver fun _ _ => rfl) fun _ => Keeps.pure _
  · exact Keeps.bind (keeps_withAero_files (keeps_muSolve_files ps).tryFinite) fun _ => Keeps.pure _

theorem files_targetLoop {L error : ℝ} (left : ℕ) (x0 y0 x1 y1 : Option ℝ) (d : AeroDict ι) :
    Keeps World.files (targetLoop ps L error left x0 y0 x1 y1 d : Act (World B) _) := by
  induction left generalizing x0 y0 x1 y1 d with
  | zero => exact Keeps.ret _
  | succ n ih =>
    unfold targetLoop
    refine Keeps.ite (Keeps.pure _) (Keeps.bind (files_liftAt _ _) fun _ => ?_)
    exact Keeps.ite (Keeps.pure _) (ih _ _ _ _ _)

theorem files_targetBody {L error : ℝ} : Keeps World.files (targetBody ps L error : Act (World B) _) := by
  unfold targetBody
  refine Keeps.bind (keeps_getAero _) fun d => Keeps.bind (keeps_needKey _) fun x0 => ?_
  refine Keeps.bind (files_liftAt _ _) fun _ => Keeps.bind (files_liftAt _ _) fun _ => ?_
  exact files_targetLoop _ _ _ _ _ _

theorem files_stallOnset (fuel : ℕ) : Keeps World.files (stallOnset ps fuel : Act (World B) _) :=
  friendly_files.stallOnset (fun _ => files_setAero _) fuel

theorem files_airspeedLoop {weight error : ℝ} {sweep : ℕ} (fuel : ℕ) (x0 y0 x1 y1 : ℝ) (s : StallResult)
    (d : AeroDict ι) :
    Keeps World.files (airspeedLoop ps weight error sweep fuel x0 y0 x1 y1 s d : Act (World B) _) := by
  induction fuel generalizing x0 y0 x1 y1 s d with
  | zero => exact Keeps.ret _
  | succ n ih =>
    unfold airspeedLoop
    refine Keeps.ite (Keeps.raise _) (Keeps.ite (Keeps.pure _)
      (Keeps.bind (keeps_withAero_files (files_stallOnset _)) fun r => ?_))
    rcases r with ⟨_ | _, _⟩
    · exact Keeps.pure _
    · exact ih _ _ _ _ _ _

theorem files_airspeedBody {weight error : ℝ} {fuel sweep : ℕ} :
    Keeps World.files (airspeedBody ps weight error fuel sweep : Act (World B) _) := by
  unfold airspeedBody
  refine Keeps.bind (keeps_getAero _) fun d => Keeps.bind (keeps_needKey _) fun x0 => ?_
  refine Keeps.bind (keeps_withAero_files (files_stallOnset _)) fun s0 =>
    Keeps.bind (keeps_withAero_files (files_stallOnset _)) fun s1 => ?_
  rcases s0 with ⟨_ | _, _⟩
  · exact Keeps.pure _
  rcases s1 with ⟨_ | _, _⟩
  · exact Keeps.pure _
  · exact files_airspeedLoop _ _ _ _ _ _ _

theorem files_acSweep (xs : List ℝ) : Keeps World.files (acSweep ps xs : Act (World B) _) := by
  induction xs with
  | nil => exact Keeps.pure _
  | cons x t ih =>
    unfold acSweep
    exact Keeps.bind (files_setAero _) fun _ => Keeps.bind (keeps_muSolve_files ps) fun _ => Keeps.bind ih fun _ => Keeps.pure _

theorem keeps_orRaise {S α γ : Type} {p : S → γ} (e : PyErr) (o : Option α) : Keeps p (Act.orRaise e o : Act S α) := by
  cases o
  · exact Keeps.raise _
  · exact Keeps.ret _

theorem files_acBody (cg : V3) : Keeps World.files (acBody ps cg : Act (World B) _) := by
  unfold acBody
  refine Keeps.bind (keeps_getAero _) fun _ => Keeps.bind keeps_dynPressure fun _ => Keeps.bind (files_acSweep _) fun _ => ?_
  refine Keeps.ite (Keeps.raise _) ?_
  exact Keeps.bind (keeps_orRaise _ _) fun _ => Keeps.bind (keeps_orRaise _ _) fun _ => Keeps.bind (keeps_orRaise _ _) fun _ =>
    Keeps.bind (keeps_orRaise _ _) fun _ => keeps_orRaise _ _

section
variable {α β : Type} {F : List (String × Doc ι)} {f : String} {doc : α → Option (Doc ι)}

/-- `OnlyAddsFile` for two computations in one world -/
def AddsAt (F : List (String × Doc ι)) (f : String) (doc : α → Option (Doc ι)) (m0 m1 : Act (World B) α) (w : World B) : Prop :=
  (m0 w).2.files = F ∧
  (∀ r w', m0 w = (.ok r, w') → m1 w = (.ok r, { w' with files := F ++ ((doc r).toList.map fun x => (f, x)) })) ∧
  (∀ e w', m0 w = (.error e, w') → m1 w = (.error e, w') ∨
    e = .runtime ∧ ∃ r msg, m1 w = (.ok r, { w' with files := F ++ [(f, .error msg)] }))

theorem AddsAt.bind {m : Act (World B) β} (hm : Keeps World.files m) {k0 k1 : β → Act (World B) α} {w : World B} (hw : w.files = F)
    (hk : ∀ (b : β) (w1 : World B), w1.files = F → AddsAt F f doc (k0 b) (k1 b) w1) :
    AddsAt F f doc (m >>= k0) (m >>= k1) w := by
  have hf := hm w
  unfold AddsAt
  rcases h : m w with ⟨e | b, w1⟩
  · rw [bind_of_error h, bind_of_error h]
    rw [h] at hf
    exact ⟨hf.trans hw, fun r w' h' => by (cases h'), fun e' w' h' => Or.inl h'⟩
  · rw [bind_of_ok h, bind_of_ok h]
    rw [h] at hf
    exact hk b w1 (hf.trans hw)

theorem AddsAt.raise (e : PyErr) {w : World B} (hw : w.files = F) : AddsAt F f doc (Act.raise e) (Act.raise e) w :=
  ⟨hw, fun r w' h' => by (cases h'), fun e' w' h' => Or.inl h'⟩

theorem AddsAt.write {r : α} {d : Doc ι} (hd : doc r = some d) {w : World B} (hw : w.files = F) :
    AddsAt F f doc (writeFile none d >>= fun _ => pure r) (writeFile (some f) d >>= fun _ => pure r) w := by
  refine ⟨hw, fun r' w' h' => ?_, fun e w' h' => by (cases h')⟩
  cases h'
  rw [hd, ← hw]
  rfl

theorem AddsAt.unable {r : α} {msg : String} {w : World B} (hw : w.files = F) :
    AddsAt F f doc (Act.raise .runtime) (writeFile (some f) (.error msg) >>= fun _ => pure r) w := by
  refine ⟨hw, fun r' w' h' => by (cases h'), fun e w' h' => Or.inr ?_⟩
  cases h'
  exact ⟨rfl, r, msg, by rw [← hw]; rfl⟩

theorem AddsAt.pending {r : α} (hd : doc r = none) {w : World B} (hw : w.files = F) :
    AddsAt F f doc (pure r) (pure r) w := by
  refine ⟨hw, fun r' w' h' => ?_, fun e w' h' => by (cases h')⟩
  cases h'
  rw [hd, ← hw]
  simp

theorem AddsAt.ite {c : Prop} [Decidable c] {m0 m1 n0 n1 : Act (World B) α} {w : World B} (hm : c → AddsAt F f doc m0 m1 w)
    (hn : ¬ c → AddsAt F f doc n0 n1 w) : AddsAt F f doc (if c then m0 else n0) (if c then m1 else n1) w := by
  by_cases h : c
  · rw [if_pos h, if_pos h]; exact hm h
  · rw [if_neg h, if_neg h]; exact hn h

end

/-- **C102, `derivatives`.** -/
theorem C102_derivatives : OnlyAddsFile (fun _ => True) (fun f => derivatives (B := B) ps f) derivativesDoc := by
  intro w f _
  show AddsAt _ _ _ _ _ _
  unfold derivatives
  refine AddsAt.ite (fun _ => ?_) fun _ => AddsAt.unable rfl
  refine AddsAt.bind (friendly_files.stab (fun _ => files_setAero _) fun _ => files_setAero _) rfl fun s w1 h1 => ?_
  refine AddsAt.bind (friendly_files.cont (fun _ => files_setCtrl _) (fun _ => files_setCtrl _) (fun _ => files_setCtrl _)
    fun _ => files_setCtrl _) h1 fun c w2 h2 => ?_
  refine AddsAt.bind (friendly_files.damp (fun _ => files_setAero _) (fun _ => files_setAero _) fun _ => files_setAero _) h2
    fun d w3 h3 => ?_
  exact AddsAt.write (by rfl) h3

/-- **C102, `stall_onset`.** -/
theorem C102_stall_onset (fuel : ℕ) : OnlyAddsFile (fun _ => True) (fun f => stallOnsetFile (B := B) ps f fuel) stallDoc := by
  intro w f _
  show AddsAt _ _ _ _ _ _
  unfold stallOnsetFile
  refine AddsAt.ite (fun _ => ?_) fun _ => AddsAt.unable rfl
  refine AddsAt.bind (files_stallOnset fuel) rfl fun r w1 h1 => ?_
  cases r
  · exact AddsAt.pending (by rfl) h1
  · exact AddsAt.write (by rfl) h1

/-- **C102, `stall_airspeed`.** -/
theorem C102_stall_airspeed (weight error : ℝ) (fuel sweep : ℕ) :
    OnlyAddsFile (fun _ => True) (fun f => stallAirspeed (B := B) ps weight error f fuel sweep) stallDoc := by
  intro w f _
  show AddsAt _ _ _ _ _ _
  unfold stallAirspeed
  refine AddsAt.ite (fun _ => ?_) fun _ => AddsAt.unable rfl
  refine AddsAt.bind Keeps.get rfl fun w0 w1 h1 => AddsAt.ite (fun _ => ?_) fun _ => AddsAt.raise _ h1
  refine AddsAt.bind files_airspeedBody h1 fun r w2 h2 => ?_
  rcases r with _ | ⟨s, v⟩
  · exact AddsAt.pending (by rfl) h2
  · exact AddsAt.write (by rfl) h2

/-- **C102, `target_lift`.** -/
theorem C102_target_lift (L error : ℝ) : OnlyAddsFile (fun _ => True) (fun f => targetLift (B := B) ps L error f) trimDoc := by
  intro w f _
  show AddsAt _ _ _ _ _ _
  unfold targetLift
  refine AddsAt.bind Keeps.get rfl fun w0 w1 h1 => AddsAt.ite (fun _ => ?_) fun _ => ?_
  · refine AddsAt.bind files_targetBody h1 fun r w2 h2 => ?_
    cases r
    · exact AddsAt.unable h2
    · exact AddsAt.write (by rfl) h2
  · refine AddsAt.bind (keeps_withAero_files files_targetBody) h1 fun r w2 h2 => ?_
    rcases r with ⟨_ | _, _⟩
    · exact AddsAt.raise _ h2
    · exact AddsAt.write (by rfl) h2

/-- **C102, `find_aero_center`.** -/
theorem C102_aero_center (cg : V3) : OnlyAddsFile (fun _ => True) (fun f => findAeroCenter (B := B) ps cg f) centerDoc := by
  intro w f _
  show AddsAt _ _ _ _ _ _
  unfold findAeroCenter
  refine AddsAt.bind Keeps.get rfl fun w0 w1 h1 => AddsAt.ite (fun _ => ?_) fun _ => ?_
  · exact AddsAt.bind (files_acBody cg) h1 fun r w2 h2 => AddsAt.write (by rfl) h2
  · exact AddsAt.bind (keeps_withAero_files (files_acBody cg)) h1 fun r w2 h2 => AddsAt.write (by rfl) h2

theorem files_slopes (g : Loads → ℝ) : Keeps World.files (slopes ps g : Act (World B) _) :=
  friendly_files.slopes (fun _ => files_setAero _) (fun _ => files_setCtrl _) g

theorem trimLoop_adds (L M error : ℝ) {F : List (String × Doc ι)} (f : String) (left : ℕ) : ∀ (a de : ℝ) (w : World B), w.files = F →
    AddsAt F f trimDoc (trimLoop ps L M error none (left + 1) a de) (trimLoop ps L M error (some f) (left + 1) a de) w := by
  induction left with
  | zero =>
    intro a de w hw
    unfold trimLoop
    refine AddsAt.bind (files_setAero _) hw fun _ w1 h1 => AddsAt.bind (files_setCtrl _) h1 fun _ w2 h2 =>
      AddsAt.bind (keeps_muSolve_files ps) h2 fun r w3 h3 => AddsAt.ite (fun _ => AddsAt.write (by rfl) h3) fun _ => ?_
    refine AddsAt.bind (files_slopes _) h3 fun _ w4 h4 => AddsAt.bind (files_slopes _) h4 fun _ w5 h5 => ?_
    refine AddsAt.ite (fun _ => AddsAt.unable h5) fun _ => AddsAt.ite (fun _ => AddsAt.raise _ h5) fun _ => ?_
    exact AddsAt.unable h5
  | succ n ih =>
    intro a de w hw
    unfold trimLoop
    refine AddsAt.bind (files_setAero _) hw fun _ w1 h1 => AddsAt.bind (files_setCtrl _) h1 fun _ w2 h2 =>
      AddsAt.bind (keeps_muSolve_files ps) h2 fun r w3 h3 => AddsAt.ite (fun _ => AddsAt.write (by rfl) h3) fun _ => ?_
    refine AddsAt.bind (files_slopes _) h3 fun _ w4 h4 => AddsAt.bind (files_slopes _) h4 fun _ w5 h5 => ?_
    refine AddsAt.ite (fun _ => AddsAt.unable h5) fun _ => AddsAt.ite (fun _ => AddsAt.raise _ h5) fun _ => ?_
    rw [if_neg (Nat.succ_ne_zero n), if_neg (Nat.succ_ne_zero n)]
    exact ih _ _ w5 h5

/-- **C102, `pitch_trim`, in part**: with both states given.  Missing: calls that omit one, which never write a file
(`C51_dropped`). -/
theorem C102_pitch_trim_partial (L M error : ℝ) :
    OnlyAddsFile (fun w => aeroGiven w = true ∧ ctrlGiven w = true) (fun f => pitchTrim (B := B) ps L M error f) trimDoc := by
  intro w f ⟨ha, hc⟩
  show AddsAt _ _ _ _ _ _
  have h : ∀ o, pitchTrim (B := B) ps L M error o w = trimLoop ps L M error o 101 0 0 w := by
    intro o
    unfold pitchTrim
    rw [get_bind, if_pos ha, if_pos hc]
  have := trimLoop_adds (ps := ps) L M error f 100 0 0 w rfl
  unfold AddsAt at this ⊢
  simp only [h]
  exact this

/-- **C102, `solve`, in part**: with an `aero_state`.  The file holds the results of the wing model and of the propeller models, if
the aircraft has them, and their sum, which is returned.  Missing: calls without an `aero_state`, which never return
(`C54_refuted`). -/
theorem C102_solve_partial {w w' : World B} {total : Loads} (h : aeroGiven w = true) (f : String)
    (hs : muSolveFile ps none w = (.ok total, w')) :
    w'.files = w.files ∧ ∃ wing prop,
      muSolveFile ps (some f) w = (.ok total, { w' with files := w.files ++ [(f, .solve wing prop total)] }) ∧
      (if B.hasProps then ∃ r d field st, prop = some r ∧ w.aero = some d ∧ B.propSolve d ps w.st = (.ok (r, field), st)
        else prop = none) ∧
      (if B.hasWings then ∃ R d st, wing = some R ∧ w'.aero = some d ∧ B.wingSolve d w.ctrl st = (.ok R, w'.st) else wing = none) ∧
      total.FL = (prop.elim 0 (·.loads.FL)) + (wing.elim 0 (·.total.FL)) ∧
      total.FD = (prop.elim 0 (·.loads.FD)) + (wing.elim 0 (·.total.FD)) ∧
      total.FS = (prop.elim 0 (·.loads.FS)) + (wing.elim 0 (·.total.FS)) ∧
      total.FX = (prop.elim 0 (·.loads.FX)) + (wing.elim 0 (·.total.FX)) ∧
      total.FY = (prop.elim 0 (·.loads.FY)) + (wing.elim 0 (·.total.FY)) ∧
      total.FZ = (prop.elim 0 (·.loads.FZ)) + (wing.elim 0 (·.total.FZ)) ∧
      total.MX = (prop.elim 0 (·.loads.MX)) + (wing.elim 0 (·.total.MX)) ∧
      total.MY = (prop.elim 0 (·.loads.MY)) + (wing.elim 0 (·.total.MY)) ∧
      total.MZ = (prop.elim 0 (·.loads.MZ)) + (wing.elim 0 (·.total.MZ)) := by
  obtain ⟨d, hd, -⟩ := aeroGiven_some h
  have hs' := hs
  unfold muSolveFile at hs'
  rw [get_bind, if_pos h] at hs'
  obtain ⟨⟨wing, prop, total'⟩, w1, h1, h2⟩ := bind_ok.1 hs'
  cases h2
  obtain ⟨field, st1, k1, k2, k3, k4, -, k6, k7⟩ := solveParts_ok hd h1
  refine ⟨k7, wing, prop, ?_, ?_, ?_, ?_⟩
  · unfold muSolveFile
    rw [get_bind, if_pos h, bind_of_ok h1]
    show ((.ok total : Except PyErr Loads), ({ w' with files := w'.files ++ [(f, .solve wing prop total)] } : World B)) = _
    rw [k7]
  · split_ifs at k1 ⊢
    · obtain ⟨r, hr, k⟩ := k1
      exact ⟨r, d, field, st1, hr, hd, k⟩
    · exact k1.1
  · split_ifs at k2 ⊢
    · obtain ⟨R, hR, k⟩ := k2
      exact ⟨R, _, st1, hR, k4, k⟩
    · exact k2.1
  · rw [k3]
    cases prop <;> cases wing <;> simp [totalOf, Loads.add, Loads.zero]

/-- with an `aero_state` and no file name, `solve` is the analysis the other functions call -/
theorem muSolveFile_none {w : World B} (h : aeroGiven w = true) : muSolveFile ps none w = muSolve ps w := by
  unfold muSolveFile muSolve
  rw [get_bind, get_bind, if_pos h, if_pos h]
  rcases hn : solveParts ps w with ⟨e | r, w'⟩
  · rw [bind_of_error hn, bind_of_error hn]
  · rw [bind_of_ok hn, bind_of_ok hn]
    rfl

section Examples

/-- a trim that is found without a file name is written if there is one -/
example : ∃ a e w', pitchTrim (B := curveB (fun x e => 1 + 5 * x + e) fun x e => 2 - x - 3 * e) none 7 0 (1 / 100) (some "trim.json")
    ⟨(), some { Vmag := some 10, rho := some 1 }, some zeroCtrlDict, [], []⟩ = (.ok (.trim a e), w') ∧
    w'.files = [("trim.json", .trim a e)] := by
  obtain ⟨a, e, h, -⟩ := C50_straight (B := curveB (fun x e => 1 + 5 * x + e) fun x e => 2 - x - 3 * e) (ps := none) (L := 7) (M := 0)
      (error := 1 / 100) (filename := none) (w := ⟨(), some { Vmag := some 10, rho := some 1 }, some zeroCtrlDict, [], []⟩)
      (d := { Vmag := some 10, rho := some 1 }) (c := zeroCtrlDict) (l0 := 1) (la := 5) (le := 1) (m0 := 2) (ma := -1)
      (me := -3) rfl (by simp [AeroDict.truthy]) rfl (by simp [CtrlDict.truthy, zeroCtrlDict]) (by norm_num) (by norm_num) (by
    intro x e w d' h1 h2 h3
    obtain ⟨r, w', h, hF, hM⟩ := curve_trim (f := fun x e => 1 + 5 * x + e) (m := fun x e => 2 - x - 3 * e) none
      { Vmag := some 10, rho := some 1 } zeroCtrlDict x e w d' h1 h2 h3
    exact ⟨r, w', h, by rw [hF]; ring, by rw [hM]; ring⟩)
  obtain ⟨-, k, -⟩ := C102_pitch_trim_partial (B := curveB (fun x e => 1 + 5 * x + e) fun x e => 2 - x - 3 * e) (ps := none) 7 0 (1 / 100)
    ⟨(), some { Vmag := some 10, rho := some 1 }, some zeroCtrlDict, [], []⟩ "trim.json"
    ⟨by simp [aeroGiven, AeroDict.truthy], by simp [ctrlGiven, CtrlDict.truthy, zeroCtrlDict]⟩
  exact ⟨a, e, _, k _ _ (Prod.ext h rfl), rfl⟩

/-- the flat wing is solved -/
example : ∃ r w', muSolveFile (B := flatB) none none
    { flatWorld with aero := some { Vmag := some 10, rho := some 1, alpha := some 0 } } = (.ok r, w') := by
  rw [muSolveFile_none (by simp [aeroGiven, AeroDict.truthy])]
  exact flat_solvesAll none _ _ rfl ⟨rfl, rfl, rfl, by simp, by simp, by simp⟩

end Examples

end Verif
