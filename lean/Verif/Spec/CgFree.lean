import Verif.Model.MUCalls
import Verif.Model.Session
import Verif.Spec.Similarity

/-!
# Specification: what the location of the CG of an aircraft can change

The CG of an aircraft is the point its moments refer to (and the one it rotates about).  Moving it by `δ` changes a moment `M`
to `M - δ × F`, where `F` is the force, and nothing else.
-/

namespace Verif
open V3

/-- the loads of the aircraft with the CG moved by `δ` -/
def Loads.CgMoved (δ : V3) (T T' : Loads) : Prop :=
  (T'.FL, T'.FD, T'.FS) = (T.FL, T.FD, T.FS) ∧ T'.F = T.F ∧ T'.M = T.M - cross δ T.F

/-- the derivatives of the aircraft with the CG moved by `δ`; `lat` and `long` are the reference lengths the moment coefficients
are formed with -/
structure Deriv.CgMoved (lat long : ℝ) (δ : V3) (D D' : Deriv) : Prop where
  CL : D'.CL = D.CL
  CD : D'.CD = D.CD
  CS : D'.CS = D.CS
  CX : D'.CX = D.CX
  CY : D'.CY = D.CY
  CZ : D'.CZ = D.CZ
  M : (⟨lat * D'.Cl, long * D'.Cm, lat * D'.Cn⟩ : V3) = ⟨lat * D.Cl, long * D.Cm, lat * D.Cn⟩ - cross δ ⟨D.CX, D.CY, D.CZ⟩

/-- the answer of a method for the aircraft with the CG moved by `δ`: loads and derivatives as above; the stall, the angle of
attack for a lift and the aerodynamic centre are the same -/
def Answer.CgMoved (lat long : ℝ) (δ : V3) : Answer → Answer → Prop
  | .loads T, .loads T' => T.CgMoved δ T'
  | .stab D, .stab D' => Option.Rel (Deriv.CgMoved lat long δ) D.a D'.a ∧ Option.Rel (Deriv.CgMoved lat long δ) D.b D'.b
  | .cont D, .cont D' => Option.Rel (Deriv.CgMoved lat long δ) D.da D'.da ∧ Option.Rel (Deriv.CgMoved lat long δ) D.de D'.de ∧
      Option.Rel (Deriv.CgMoved lat long δ) D.dr D'.dr ∧ Option.Rel (Deriv.CgMoved lat long δ) D.df D'.df
  | .stall r, .stall r' => r' = r
  | .trim r, .trim r' => r' = r
  | .point P, .point P' => P' = P
  | _, _ => False

/-- the methods that neither rotate the aircraft nor look for a moment -/
def Analysis.ForcesOnly : Analysis → Prop
  | .damping => False
  | .derivatives _ => False
  | .pitchTrim _ _ _ _ => False
  | _ => True

/-- a call of a method, for an aircraft with any CG -/
structure Request (ι : Type) where
  what : Analysis
  aero : Option (AeroDict ι)
  ctrl : Option CtrlDict
  ps : Option PropDict

/-- no rotation rates in the `aero_state` argument -/
def NoRates {ι : Type} (a : Option (AeroDict ι)) : Prop := ∀ d, a = some d → d.roll = none ∧ d.pitch = none ∧ d.yaw = none

end Verif
