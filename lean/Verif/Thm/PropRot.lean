import Verif.Thm.PropCalls
import Verif.Model.PropGeom

/-!
# The direction of rotation (C98)
-/

namespace Verif
open V3

/-- The documented values of `rot_dir` (`geometry.py:331`) and the direction each of them names: `1` for counter-clockwise,
`-1` for clockwise (`geometry.py:1184`). -/
inductive DocumentedRot : RotArg → ℝ → Prop
  | ccw : DocumentedRot (.str "CCW") 1
  | cw : DocumentedRot (.str "CW") (-1)
  | one : DocumentedRot (.num 1) 1
  | zero : DocumentedRot (.num 0) (-1)

/-- **C98 fails.** A propeller declared clockwise with the documented value 0 turns counter-clockwise. -/
theorem C98_refuted : ¬ ∀ (nm : String) (pos : Option V3) (ops : List PlaneOp) (name : String) (d : PropDims) (r : RotArg) (x : ℝ)
    (q : PropGeom), DocumentedRot r x → d.rotDir = some r →
    dictGet (built nm pos (ops ++ [.addProp name d])).props name = some q → q.rot = x := by
  intro h
  obtain ⟨q, hq, hd⟩ := C97_dimensions "p" none [] [] "prop" { rotDir := some (.num 0) } (by simp)
  have := h "p" none [] "prop" { rotDir := some (.num 0) } (.num 0) (-1) q .zero rfl hq
  unfold PropGeom.rot at this
  rw [hd.rotDir] at this
  norm_num at this

/-- **C98, the part that holds.** The strings (in upper or lower case), `1` and `-1` are understood, and the default is
counter-clockwise; whatever is called before and afterwards. -/
theorem C98_rot_partial (nm : String) (pos : Option V3) (pre post : List PlaneOp) (name : String) (d : PropDims)
    (hpost : ∀ op ∈ post, ¬ AddsProp name op) :
    ∃ q, dictGet (built nm pos (pre ++ .addProp name d :: post)).props name = some q ∧
      (d.rotDir = none ∨ d.rotDir = some (.str "CCW") ∨ d.rotDir = some (.str "ccw") ∨ d.rotDir = some (.num 1) → q.rot = 1) ∧
      (d.rotDir = some (.str "CW") ∨ d.rotDir = some (.str "cw") ∨ d.rotDir = some (.num (-1)) → q.rot = -1) := by
  obtain ⟨q, hq, hd⟩ := C97_dimensions nm pos pre post name d hpost
  refine ⟨q, hq, ?_, ?_⟩
  · rintro (h | h | h | h) <;> unfold PropGeom.rot <;> rw [hd.rotDir, h] <;> simp
  · rintro (h | h | h) <;> unfold PropGeom.rot <;> rw [hd.rotDir, h] <;> norm_num <;> decide

end Verif
