import Verif.Model.Grid

/-!
# Model of the public getters of `LLGrid` that report section properties (`llgrid.py:460-754`)

Entry `j` of each list is row `j` of the returned array.  The getters of positions, unit vectors, areas and mixing
return the fields of the sections in the same way and are read directly off `Grid.data` elsewhere in the model.
-/

namespace Verif

namespace Grid
variable (g : Grid)

/-- `LLGrid.get_cp_spacing` (`llgrid.py:460-468`) -/
def getCpSpacing : List ℝ := g.data.map (·.sp)
/-- `LLGrid.get_lift_slopes` (`llgrid.py:470-479`) -/
def getLiftSlopes : List ℝ := g.data.map (·.cla)
/-- `LLGrid.get_left_lift_slopes` (`llgrid.py:481-490`) -/
def getLeftLiftSlopes : List ℝ := g.data.map (·.left.cla)
/-- `LLGrid.get_right_lift_slopes` (`llgrid.py:492-501`) -/
def getRightLiftSlopes : List ℝ := g.data.map (·.right.cla)
/-- `LLGrid.get_max_lifts` (`llgrid.py:503-512`) -/
def getMaxLifts : List ℝ := g.data.map (·.clMax)
/-- `LLGrid.get_drag_coefficients` (`llgrid.py:514-525`): the arrays `CD0_left`, `CD1_left`, `CD2_left` -/
def getDragCoefficients : List (ℝ × ℝ × ℝ) := g.data.map fun x => (x.left.cd0, x.left.cd1, x.left.cd2)
/-- `LLGrid.get_right_drag_coeff` (`llgrid.py:527-538`) -/
def getRightDragCoeff : List (ℝ × ℝ × ℝ) := g.data.map fun x => (x.right.cd0, x.right.cd1, x.right.cd2)
/-- `LLGrid.get_left_drag_coeff` (`llgrid.py:540-551`) -/
def getLeftDragCoeff : List (ℝ × ℝ × ℝ) := g.data.map fun x => (x.left.cd0, x.left.cd1, x.left.cd2)
/-- `LLGrid.get_moment_slopes` (`llgrid.py:553-563`) -/
def getMomentSlopes : List (ℝ × ℝ × ℝ) := g.data.map fun x => (x.cma, x.cml0, x.cmd)
/-- `LLGrid.get_left_moment_slopes` (`llgrid.py:565-574`) -/
def getLeftMomentSlopes : List ℝ := g.data.map (·.left.cma)
/-- `LLGrid.get_right_moment_slopes` (`llgrid.py:576-585`) -/
def getRightMomentSlopes : List ℝ := g.data.map (·.right.cma)
/-- `LLGrid.get_left_zero_lift_moments` (`llgrid.py:587-596`) -/
def getLeftZeroLiftMoments : List ℝ := g.data.map (·.left.cml0)
/-- `LLGrid.get_right_zero_lift_moments` (`llgrid.py:598-607`) -/
def getRightZeroLiftMoments : List ℝ := g.data.map (·.right.cml0)
/-- `LLGrid.get_chord_length` (`llgrid.py:609-618`) -/
def getChordLength : List ℝ := g.data.map (·.chord)
/-- `LLGrid.get_zero_lift_alpha` (`llgrid.py:710-719`) -/
def getZeroLiftAlpha : List ℝ := g.data.map (·.al0)
/-- `LLGrid.get_left_zero_lift_alpha` (`llgrid.py:721-731`) -/
def getLeftZeroLiftAlpha : List ℝ := g.data.map (·.left.al0)
/-- `LLGrid.get_right_zero_lift_alpha` (`llgrid.py:733-743`) -/
def getRightZeroLiftAlpha : List ℝ := g.data.map (·.right.al0)
/-- `LLGrid.get_twist` (`llgrid.py:745-754`): mounting angle minus washout -/
def getTwist : List ℝ := g.data.map fun x => x.mount - x.washout

end Grid

end Verif
