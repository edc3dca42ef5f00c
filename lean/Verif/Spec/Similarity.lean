import Verif.Model.LL

/-!
# Specification vocabulary: geometrically similar configurations

What it means for one set of wing sections / flow / result to be the scaled, translated, rotated or
mirrored image of another one.  Used to state the scaling, translation, symmetry and permutation properties.
-/

namespace Verif
open V3

/-- A linear map that preserves scalar products and preserves (`flip = false`) or reverses (`flip = true`)
orientation: a rotation or a reflection. -/
structure Iso where
  Q : V3 →ₗ[ℝ] V3
  flip : Bool
  dot_Q : ∀ a b, dot (Q a) (Q b) = dot a b
  cross_Q : ∀ a b, cross (Q a) (Q b) = (if flip then (-1 : ℝ) else 1) • Q (cross a b)

namespace Iso
/-- `+1` for a rotation, `-1` for a reflection -/
noncomputable def sgn (T : Iso) : ℝ := if T.flip then -1 else 1
end Iso

/-- The identity. -/
def Iso.id : Iso where
  Q := LinearMap.id
  flip := false
  dot_Q _ _ := rfl
  cross_Q a b := by simp

/-- Reflection in the x-z plane. -/
def Iso.mirror : Iso where
  Q := { toFun := mir, map_add' := mir_add, map_smul' := mir_smul }
  flip := true
  dot_Q a b := by simp [dot]
  cross_Q a b := by ext <;> simp <;> ring

/-- A similarity of configurations: isometry, length factor, translation, speed factor, density factor. -/
structure Sim extends Iso where
  /-- length factor -/
  len : ℝ
  len_pos : 0 < len
  /-- translation -/
  tr : V3
  /-- speed factor -/
  spd : ℝ
  spd_pos : 0 < spd
  /-- density factor -/
  den : ℝ

/-- Image of a point. -/
noncomputable def Sim.pt (T : Sim) (p : V3) : V3 := T.len • T.Q p + T.tr

/-- `s'` is the image of the section `s`.  Under a reflection left and right change places and the spanwise
station is measured from the other end.  Names, mixing coefficients and values that do not enter a solve
(chord, twist, dihedral, sweep) are not mentioned. -/
structure SecImage (T : Sim) (s s' : Section) : Prop where
  rcp : s'.rcp = T.pt s.rcp
  r1 : s'.r1 = T.pt (if T.flip then s.r2 else s.r1)
  r2 : s'.r2 = T.pt (if T.flip then s.r1 else s.r2)
  sp : s'.sp = if T.flip then 1 - s.sp else s.sp
  left : s'.left = if T.flip then s.right else s.left
  right : s'.right = if T.flip then s.left else s.right
  area : s'.area = T.len ^ 2 * s.area
  cla : s'.cla = s.cla
  ua : s'.ua = T.Q s.ua
  un : s'.un = T.Q s.un
  us : s'.us = T.sgn • T.Q s.us
  flapEff : s'.flapEff = s.flapEff
  cmd : s'.cmd = s.cmd
  ic2 : s'.ic2 = T.len ^ 3 * s.ic2

/-- `F'` is the image of the flow `F`, section `σ i` corresponding to section `i`. -/
structure FlowImage {ι ι' : Type*} (T : Sim) (σ : ι ≃ ι') (F : Flow ι) (F' : Flow ι') : Prop where
  v : ∀ i, F'.v (σ i) = T.spd • T.Q (F.v i)
  u : F'.u = T.Q F.u
  rho : ∀ i, F'.rho (σ i) = T.den * F.rho i

/-- Corresponding sections have the same control deflection. -/
structure CtrlImage {ι ι' : Type*} (σ : ι ≃ ι') (C : Ctrl ι) (C' : Ctrl ι') : Prop where
  delta : ∀ i, C'.delta (σ i) = C.delta i
  eff : ∀ i, C'.eff (σ i) = C.eff i

/-- body axis force of a result group -/
def Loads.F (l : Loads) : V3 := ⟨l.FX, l.FY, l.FZ⟩
/-- body axis moment of a result group -/
def Loads.M (l : Loads) : V3 := ⟨l.MX, l.MY, l.MZ⟩

/-- The body-axis loads `l'` are the image of `l`: forces scale with density, speed² and length², moments with one
more length and change sign under reflections. -/
structure BodyLoadsImage (T : Sim) (l l' : Loads) : Prop where
  F : l'.F = (T.den * T.spd ^ 2 * T.len ^ 2) • T.Q l.F
  M : l'.M = (T.sgn * (T.den * T.spd ^ 2 * T.len ^ 3)) • T.Q l.M

/-- `R'` is the image of the solution `R` (everything that does not refer to wind axes). -/
structure SolImage {ι ι' : Type*} (T : Sim) (σ : ι ≃ ι') (R : Sol ι) (R' : Sol ι') : Prop where
  gamma : ∀ i, R'.gamma (σ i) = T.spd * T.len * R.gamma i
  vi : ∀ i, R'.vi (σ i) = T.spd • T.Q (R.vi i)
  alpha : ∀ i, R'.alpha (σ i) = R.alpha i
  force : ∀ i, R'.force (σ i) = (T.den * T.spd ^ 2 * T.len ^ 2) • T.Q (R.force i)
  fpar : ∀ i, R'.fpar (σ i) = (T.den * T.spd ^ 2 * T.len ^ 2) • T.Q (R.fpar i)
  moment : ∀ i, R'.moment (σ i) = (T.sgn * (T.den * T.spd ^ 2 * T.len ^ 3)) • T.Q (R.moment i)
  cl : ∀ i, R'.cl (σ i) = R.cl i
  cd : ∀ i, R'.cd (σ i) = R.cd i
  cm : ∀ i, R'.cm (σ i) = R.cm i
  inviscid : BodyLoadsImage T R.inviscid R'.inviscid
  viscous : BodyLoadsImage T R.viscous R'.viscous
  total : BodyLoadsImage T R.total R'.total

end Verif

namespace Verif

/-- Two outcomes correspond: both are the same error, or both are results related by `P`. -/
def Outcome {α β ε : Type*} (P : α → β → Prop) (r : Except ε α) (r' : Except ε β) : Prop :=
  match r, r' with
  | .ok a, .ok b => P a b
  | .error e, .error e' => e = e'
  | _, _ => False

/-- entry-wise multiple of a result group, forces by `f` and moments by `m` -/
def Loads.scale (f m : ℝ) (l : Loads) : Loads :=
  ⟨f * l.FL, f * l.FD, f * l.FS, f * l.FX, f * l.FY, f * l.FZ, m * l.MX, m * l.MY, m * l.MZ⟩

/-- mirror image of a result group: `FS, FY, MX, MZ` change sign -/
def Loads.mirror (l : Loads) : Loads :=
  ⟨l.FL, l.FD, -l.FS, l.FX, -l.FY, l.FZ, -l.MX, l.MY, -l.MZ⟩

/-- All three result groups of `R'` are those of `R` with forces multiplied by `f` and moments by `m`. -/
structure LoadsScaled {ι ι' : Type*} (f m : ℝ) (R : Sol ι) (R' : Sol ι') : Prop where
  inviscid : R'.inviscid = R.inviscid.scale f m
  viscous : R'.viscous = R.viscous.scale f m
  total : R'.total = R.total.scale f m

/-- Section angles of attack and section coefficients agree (`σ i` corresponds to `i`). -/
structure SameSections {ι ι' : Type*} (σ : ι ≃ ι') (R : Sol ι) (R' : Sol ι') : Prop where
  alpha : ∀ i, R'.alpha (σ i) = R.alpha i
  cl : ∀ i, R'.cl (σ i) = R.cl i
  cd : ∀ i, R'.cd (σ i) = R.cd i
  cm : ∀ i, R'.cm (σ i) = R.cm i

end Verif
