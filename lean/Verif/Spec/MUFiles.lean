import Verif.Model.AeroCenter

/-!
# Output files of the analyses (C102)
-/

namespace Verif

variable {ι : Type} {B : Backend ι}

/-- For worlds with `P`, giving `call` the name of a file makes no difference but for the file.
Without a name nothing is written.  If the call without a name returns `r`, the call with a name returns `r` too, leaves everything
else as it does, and has written one file: it has that name and contains `doc r` (`none`: nothing is
written because `call` has not come to an end yet).  If the call without a name raises, so does the call with a name, and it writes
nothing; only where the call without a name raises a `RuntimeError`, it may write an error message instead. -/
def OnlyAddsFile {α : Type} (P : World B → Prop) (call : Option String → Act (World B) α) (doc : α → Option (Doc ι)) : Prop :=
  ∀ (w : World B) (f : String), P w →
    (call none w).2.files = w.files ∧
    (∀ r w', call none w = (.ok r, w') →
      call (some f) w = (.ok r, { w' with files := w.files ++ ((doc r).toList.map fun x => (f, x)) })) ∧
    (∀ e w', call none w = (.error e, w') →
      call (some f) w = (.error e, w') ∨
      e = .runtime ∧ ∃ r msg, call (some f) w = (.ok r, { w' with files := w.files ++ [(f, .error msg)] }))

/-- the contents of the file for what `derivatives` returns -/
def derivativesDoc : Option AllDerivs → Option (Doc ι)
  | some r => some (.derivs r.stab r.margin r.cont r.damp)
  | none => some (.error "underivable")

/-- the contents of the file for what `stall_onset` and `stall_airspeed` return -/
def stallDoc : Option StallAnswer → Option (Doc ι)
  | some (.stalled r) => some (.stall r)
  | some (.airspeed r v) => some (.airspeed r v)
  | some .unstallable => some (.error "unstallable")
  | none => none

/-- the contents of the file for what `target_lift` and `pitch_trim` return -/
def trimDoc : TrimAnswer → Option (Doc ι)
  | .alpha a => some (.target a)
  | .trim a e => some (.trim a e)
  | .error msg => some (.error msg)
  | .nothing => none

/-- the contents of the file for what `find_aero_center` returns -/
def centerDoc (r : V3) : Option (Doc ι) := some (.center r.x r.z)

end Verif
