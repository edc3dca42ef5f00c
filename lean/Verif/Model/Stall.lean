import Verif.Model.Grid

/-!
# Model of `LLModel._find_stall_location` (`machup/llmodel.py:627-646`)
-/

namespace Verif

/-- `stall_info` (`MU.py:572-573`, `llmodel.py:627-646`) -/
structure StallInfo where
  /-- `"stalled_wing"` -/
  wing : String
  /-- `"span_location"` -/
  span : ℝ

open Classical in
/-- `np.where(self.section_cl > cl_max)[0]` (`llmodel.py:628-629`) -/
noncomputable def stalledSections {n : ℕ} (S : Fin n → Section) (cl : Fin n → ℝ) : List (Fin n) :=
  (List.finRange n).filter fun i => cl i > (S i).clMax

/-- `_find_stall_location` (`llmodel.py:627-646`): `S` are the sections of the grid, `cl` the section lift coefficients
of the last solve.  `stalled_wing[:5]` is a prefix of at most five characters. -/
noncomputable def findStall {n : ℕ} (S : Fin n → Section) (cl : Fin n → ℝ) : Option StallInfo :=
  match stalledSections S cl with
  | [] => none
  | i :: _ =>
    let stalledWing := (S i).name
    let loc := if stalledWing.toList.take 5 = "right".toList then (S i).sp else 1 - (S i).sp
    some ⟨stalledWing, loc⟩

end Verif
