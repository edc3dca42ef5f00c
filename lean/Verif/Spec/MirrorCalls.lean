import Verif.Spec.Similar
import Verif.Spec.Similarity

/-!
# Specification: the answers for the mirror image of an aircraft
-/

namespace Verif
open V3

/-- The answers of the methods that use no derivatives: the loads are mirrored; the stall happens at the same angle of attack, lift and
airspeed (which of the wings stalls first is not compared: on symmetric aircraft, two sections may do so at once); the same angles of
attack and elevator deflections are found; the aerodynamic centre is the same (the methods report it in the plane `y = 0`). -/
def Answer.Mirrored : Answer → Answer → Prop
  | .loads T, .loads T' => T' = T.mirror
  | .stall r, .stall r' => Option.Rel StallAnswer.SameStall r r'
  | .trim r, .trim r' => r' = r
  | .point P, .point P' => P' = P
  | _, _ => False

/-- methods that report no derivatives -/
def Analysis.NoDerivatives : Analysis → Prop
  | .stability => False
  | .damping => False
  | .control => False
  | .derivatives _ => False
  | _ => True

/-- the call for the mirror image: the flow comes from the mirrored direction, aileron and rudder are deflected the other way -/
def Request.mirror {ι ι' : Type} (σ : ι ≃ ι') (r : Request ι) : Request ι' :=
  ⟨r.what, r.aero.map fun d => d.mirror.reindex σ, r.ctrl.map CtrlDict.mirror, r.ps⟩

/-- derivatives with respect to something that is the same in the mirror: those of the lateral loads change their sign -/
def Deriv.mirrorLong (D : Deriv) : Deriv := { D with CS := -D.CS, CY := -D.CY, Cl := -D.Cl, Cn := -D.Cn }

/-- derivatives with respect to something that is reversed in the mirror: those of the other loads change their sign -/
def Deriv.mirrorLat (D : Deriv) : Deriv := { D with CL := -D.CL, CD := -D.CD, CX := -D.CX, CZ := -D.CZ, Cm := -D.Cm }

/-- the answer of `stability_derivatives` for the mirror image -/
def StabDeriv.mirror (D : StabDeriv) : StabDeriv := { D with a := D.a.map Deriv.mirrorLong, b := D.b.map Deriv.mirrorLat }

/-- the answer of `control_derivatives` for the mirror image -/
def ContDeriv.mirror (D : ContDeriv) : ContDeriv :=
  { D with da := D.da.map Deriv.mirrorLat, de := D.de.map Deriv.mirrorLong, dr := D.dr.map Deriv.mirrorLat, df := D.df.map Deriv.mirrorLong }

/-- the answer of `damping_derivatives` for the mirror image -/
def DampDeriv.mirror (D : DampDeriv) : DampDeriv :=
  { D with p := D.p.map Deriv.mirrorLat, q := D.q.map Deriv.mirrorLong, r := D.r.map Deriv.mirrorLat }

/-- the answer of `derivatives` for the mirror image: the static margin is the same -/
def AllDerivs.mirror (D : AllDerivs) : AllDerivs := ⟨D.stab.mirror, D.margin, D.cont.mirror, D.damp.mirror⟩

end Verif
