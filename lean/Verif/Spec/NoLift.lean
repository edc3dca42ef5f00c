import Verif.Model.LLState
import Verif.Model.Geometry
import Verif.Spec.Similarity

/-!
# Specification vocabulary: a surface without lift

`f` tells where the sections of an aircraft are found among the sections of the same aircraft with one more surface.
-/

namespace Verif
open V3

variable {ι ι' : Type*}

/-- The same flight condition, for some of the sections. -/
def AeroDict.seenBy (f : ι → ι') (d : AeroDict ι') : AeroDict ι :=
  { Vmag := d.Vmag, rho := d.rho, alpha := d.alpha, beta := d.beta, roll := d.roll, pitch := d.pitch, yaw := d.yaw
    localState := d.localState.map fun ls i => ls (f i), other := d.other }

/-- the sections of the additional surface -/
noncomputable def added [Fintype ι'] (f : ι → ι') : Finset ι' := open Classical in Finset.univ.filter (· ∉ Set.range f)

/-- The additional surface, whose sections are `S'` outside the range of `f`, has drag and a pitching moment about its own span axis, and
nothing else happens: every other section has the circulation, the coefficients and the loads it has without that surface, and the totals
are those without it plus the drag forces and the moments of its own sections about the CG. -/
structure OnlyDrag [Fintype ι'] (cg : V3) (S' : ι' → Section) (f : ι → ι') (R : Sol ι) (R' : Sol ι') : Prop where
  gamma : ∀ i, R'.gamma (f i) = R.gamma i
  vi : ∀ i, R'.vi (f i) = R.vi i
  alpha : ∀ i, R'.alpha (f i) = R.alpha i
  cl : ∀ i, R'.cl (f i) = R.cl i
  cd : ∀ i, R'.cd (f i) = R.cd i
  cm : ∀ i, R'.cm (f i) = R.cm i
  force : ∀ i, R'.force (f i) = R.force i
  fpar : ∀ i, R'.fpar (f i) = R.fpar i
  moment : ∀ i, R'.moment (f i) = R.moment i
  /-- no circulation, no lift -/
  unloaded : ∀ j ∈ added f, R'.gamma j = 0 ∧ R'.force j = 0 ∧ R'.cl j = 0
  /-- the drag points downstream of the local velocity -/
  along : ∀ j ∈ added f, ∃ k : ℝ, R'.fpar j = k • R'.vi j
  /-- a moment about the span axis only -/
  couple : ∀ j ∈ added f, ∃ k : ℝ, R'.moment j = k • (S' j).us
  /-- inviscid forces are those without the surface -/
  inviscidF : R'.inviscid.FL = R.inviscid.FL ∧ R'.inviscid.FD = R.inviscid.FD ∧ R'.inviscid.FS = R.inviscid.FS ∧
    R'.inviscid.F = R.inviscid.F
  inviscidM : R'.inviscid.M = R.inviscid.M + ∑ j ∈ added f, R'.moment j
  totalF : R'.total.F = R.total.F + ∑ j ∈ added f, R'.fpar j
  totalM : R'.total.M = R.total.M + ∑ j ∈ added f, (R'.moment j + cross ((S' j).rcp - cg) (R'.fpar j))

/-- calls that only give wing number `id` its airfoils and control surface -/
def OnlyWing (id : ℕ) (ops : List PlaneOp) : Prop :=
  ∀ op ∈ ops, (∃ name e props, op = .airfoil id name e props) ∨ ∃ props, op = .controlSurface id props

/-- the airfoils of wing number `id` of the aircraft have no lift slope, at the root and at the tip -/
def NoLiftSlope (p : Plane) (id : ℕ) : Prop :=
  ∀ w, p.heap[id]? = some w → ∀ s ∈ w.segments, s.root.cla = 0 ∧ s.tip.cla = 0

end Verif
