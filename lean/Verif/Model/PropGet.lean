import Verif.Model.PropSolve

/-!
# The getters of a propeller model (`propmodel.py:1328-1527`)
-/

namespace Verif

/-- what the getters of a `PropModel` object return (`propmodel.py:1328-1527`) -/
structure PropReport where
  /-- `get_name` -/
  name : String
  /-- `get_num_nodes` -/
  nodes : ℕ
  /-- `get_num_blades` -/
  blades : ℕ
  /-- `get_position` -/
  position : V3
  /-- `get_orientation` -/
  orientation : ℝ × ℝ
  /-- `get_rotation_direction` -/
  rotation : ℝ
  /-- `get_radial_position` -/
  radius : ℕ → ℝ
  /-- `get_chord` -/
  chord : ℕ → ℝ
  /-- `get_aero_pitch_angle` -/
  pitch : ℕ → ℝ
  /-- `get_zero_lift_alpha` -/
  zeroLift : ℕ → ℝ
  /-- `get_advance_angle` -/
  advance : ℕ → ℝ
  /-- `get_induced_angle` -/
  induced : ℕ → ℝ
  /-- `get_alpha` -/
  alpha : ℕ → ℝ
  /-- `get_section_CL` -/
  CL : ℕ → ℝ
  /-- `get_section_CD` -/
  CD : ℕ → ℝ
  /-- `get_Vi` -/
  Vi : ℕ → ℝ
  /-- `get_axial_Vi` -/
  Vx : ℕ → ℝ
  /-- `get_tangential_Vi` -/
  Vt : ℕ → ℝ

/-- The getters (`propmodel.py:1328-1527`) after an analysis that came to its end with the results `o`.
Simplification: not modelled are the getters before the first analysis (those of its results raise `AttributeError`) and after one
that raised an exception (some results are then those of that analysis, the others older ones). -/
noncomputable def propReport {ι : Type} (M : PropM ι) (o : PropOut) : PropReport where
  name := M.geom.name
  nodes := M.nodes
  blades := M.geom.blades
  position := M.geom.position
  orientation := (rad M.geom.orientation.1, rad M.geom.orientation.2)
  rotation := M.rot
  radius i := (M.stn i).r
  chord i := (M.stn i).cb
  pitch i := (M.stn i).beta
  zeroLift i := (M.stn i).af.aL0
  advance := o.c.einf
  induced := o.c.ei
  alpha := o.c.alpha
  CL := o.c.CL
  CD := o.c.CD
  Vi := viAt M o.n o.c
  Vx := vxiAt M o.n o.c
  Vt := vtiAt M o.n o.c

end Verif
