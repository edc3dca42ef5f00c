import Verif.Spec.Stl
import Verif.Thm.Grid

/-!
# Rotations of the STL output (C73, C74, C79)
-/

namespace Verif
open V3

/-! ### C73 -/

/-- **C73.** The quaternions built from Euler angles have length 1. -/
theorem C73_unit (a b c : ℝ) : let e := euler2Quat a b c; e.w ^ 2 + e.x ^ 2 + e.y ^ 2 + e.z ^ 2 = 1 := by
  have h1 := Real.sin_sq_add_cos_sq (a / 2)
  have h2 := Real.sin_sq_add_cos_sq (b / 2)
  have h3 := Real.sin_sq_add_cos_sq (c / 2)
  simp only [euler2Quat]
  set ca := Real.cos (a / 2); set sa := Real.sin (a / 2)
  set cb := Real.cos (b / 2); set sb := Real.sin (b / 2)
  set cc := Real.cos (c / 2); set sc := Real.sin (c / 2)
  have : (ca * cb * cc + sa * sb * sc) ^ 2 + (sa * cb * cc - ca * sb * sc) ^ 2 + (ca * sb * cc + sa * cb * sc) ^ 2 +
      (ca * cb * sc - sa * sb * cc) ^ 2 = (sa ^ 2 + ca ^ 2) * (sb ^ 2 + cb ^ 2) * (sc ^ 2 + cc ^ 2) := by ring
  rw [this, h1, h2, h3]; norm_num

/-- **C73.** Rotating by a unit quaternion preserves lengths, angles and handedness. -/
theorem C73_rotation {e : Quat} (he : e.w ^ 2 + e.x ^ 2 + e.y ^ 2 + e.z ^ 2 = 1) (u v : V3) :
    dot (body2Fixed u e) (body2Fixed v e) = dot u v ∧
    cross (body2Fixed u e) (body2Fixed v e) = body2Fixed (cross u v) e := by
  have hsq : (e.w ^ 2 + e.x ^ 2 + e.y ^ 2 + e.z ^ 2) ^ 2 = 1 := by rw [he]; norm_num
  constructor
  · have : dot (body2Fixed u e) (body2Fixed v e) = (e.w ^ 2 + e.x ^ 2 + e.y ^ 2 + e.z ^ 2) ^ 2 * dot u v := by
      simp only [body2Fixed, dot]; ring
    rw [this, hsq, one_mul]
  · have : cross (body2Fixed u e) (body2Fixed v e) = (e.w ^ 2 + e.x ^ 2 + e.y ^ 2 + e.z ^ 2) • body2Fixed (cross u v) e := by
      ext <;> simp only [body2Fixed, cross, smul_x, smul_y, smul_z] <;> ring
    rw [this, he, one_smul]

/-- **C73.** Multiplying quaternions composes the rotations: the right factor acts first. -/
theorem C73_composition (A B : Quat) (v : V3) : body2Fixed v (quatMult A B) = body2Fixed (body2Fixed v B) A := by
  ext <;> simp only [body2Fixed, quatMult] <;> ring

theorem half (a : ℝ) : Real.cos a = Real.cos (a / 2) ^ 2 - Real.sin (a / 2) ^ 2 ∧ Real.sin a = 2 * Real.sin (a / 2) * Real.cos (a / 2) ∧
    Real.sin (a / 2) ^ 2 + Real.cos (a / 2) ^ 2 = 1 := by
  have h : a = 2 * (a / 2) := by ring
  refine ⟨?_, ?_, Real.sin_sq_add_cos_sq _⟩
  · rw [h, Real.cos_two_mul']; simp
  · rw [h, Real.sin_two_mul]; simp

theorem body_rotX (a : ℝ) (v : V3) : body2Fixed v (euler2Quat a 0 0) = rotX a v := by
  obtain ⟨h1, h2, h3⟩ := half a
  simp only [body2Fixed, euler2Quat, rotX, zero_div, Real.cos_zero, Real.sin_zero, mul_one, mul_zero, add_zero, sub_zero, h1, h2]
  ext
  · simp only; linear_combination v.x * h3
  · simp only; ring
  · simp only; ring

theorem body_rotY (a : ℝ) (v : V3) : body2Fixed v (euler2Quat 0 a 0) = rotY a v := by
  obtain ⟨h1, h2, h3⟩ := half a
  simp only [body2Fixed, euler2Quat, rotY, zero_div, Real.cos_zero, Real.sin_zero, mul_one, mul_zero, add_zero, sub_zero, one_mul,
    zero_mul, h1, h2]
  ext
  · simp only; ring
  · simp only; linear_combination v.y * h3
  · simp only; ring

theorem body_rotZ (a : ℝ) (v : V3) : body2Fixed v (euler2Quat 0 0 a) = rotZ a v := by
  obtain ⟨h1, h2, h3⟩ := half a
  simp only [body2Fixed, euler2Quat, rotZ, zero_div, Real.cos_zero, Real.sin_zero, mul_one, mul_zero, add_zero, sub_zero, one_mul,
    zero_mul, h1, h2]
  ext
  · simp only; ring
  · simp only; ring
  · simp only; linear_combination v.z * h3

/-- **C73.** The rotation of Euler angles is roll about x, then pitch about y, then yaw about z. -/
theorem C73_euler (a b c : ℝ) (v : V3) : body2Fixed v (euler2Quat a b c) = rotZ c (rotY b (rotX a v)) := by
  have : euler2Quat a b c = quatMult (euler2Quat 0 0 c) (quatMult (euler2Quat 0 b 0) (euler2Quat a 0 0)) := by
    ext <;> simp only [euler2Quat, quatMult, zero_div, Real.cos_zero, Real.sin_zero] <;> ring
  rw [this, C73_composition, C73_composition, body_rotX, body_rotY, body_rotZ]

/-! ### C74 -/

theorem rotX_add (a b : ℝ) (v : V3) : rotX a (rotX b v) = rotX (a + b) v := by
  simp only [rotX, Real.cos_add, Real.sin_add]
  ext <;> simp only <;> ring

theorem spin_eq (a : ℝ) (k : ℕ) (v : V3) : spin (euler2Quat a 0 0) k v = rotX (k * a) v := by
  induction k with
  | zero => simp [spin, rotX]
  | succ k ih => rw [spin, ih, body_rotX, rotX_add]; congr 1; push_cast; ring

/-- **C74.** Before installation blade `k` of `B` is the first blade turned about the propeller axis by `k` times the `B`-th
part of a full turn; after `B` steps the first blade is reached again. -/
theorem C74_blades {B : ℕ} (hB : B ≠ 0) (k : ℕ) (v : V3) :
    spin (euler2Quat (2 * Real.pi / B) 0 0) k v = rotX (2 * Real.pi * (k / B)) v ∧
    spin (euler2Quat (2 * Real.pi / B) 0 0) B v = v := by
  have hB' : (B : ℝ) ≠ 0 := Nat.cast_ne_zero.2 hB
  constructor
  · rw [spin_eq]; congr 1; ring
  · rw [spin_eq, mul_div_cancel₀ _ hB']
    simp [rotX]

/-- **C74.** The installation rotation turns the axis the blades were spun about into the thrust axis of the propeller. -/
theorem C74_axis (q : PropGeom) :
    body2Fixed ⟨1, 0, 0⟩ (euler2Quat 0 (rad q.orientation.1) (rad q.orientation.2)) = propForward q := by
  rw [C73_euler]
  unfold propForward
  ext <;> simp [rotX, rotY, rotZ] <;> ring

/-- turning about the x axis and then installing is installing and then turning about the direction the propeller points to -/
theorem installed_turn (e h a : ℝ) (v : V3) :
    rotZ (rad h) (rotY (rad e) (rotX a v)) = turn (pointing e h) a (rotZ (rad h) (rotY (rad e) v)) := by
  have hR : ∀ u, rotZ (rad h) (rotY (rad e) u) = body2Fixed u (euler2Quat 0 (rad e) (rad h)) := fun u => by
    rw [C73_euler, show rotX 0 u = u by simp [rotX]]
  have hu : pointing e h = body2Fixed ⟨1, 0, 0⟩ (euler2Quat 0 (rad e) (rad h)) := by
    rw [← hR]
    unfold pointing
    ext <;> simp [rotY, rotZ] <;> ring
  have hx : rotX a v = turn ⟨1, 0, 0⟩ a v := by
    unfold rotX turn
    ext <;> simp [cross, dot] <;> ring
  obtain ⟨h1, h2⟩ := C73_rotation (C73_unit 0 (rad e) (rad h)) ⟨1, 0, 0⟩ v
  rw [hR, hR, hu, hx]
  unfold turn
  rw [h1, h2]
  ext <;> simp only [body2Fixed, add_x, add_y, add_z, smul_x, smul_y, smul_z] <;> ring

/-- **C74.** In every file the surface of blade `b` of `B` is that of the first blade turned about the axis of the propeller, which
runs through its position in the direction it points to, by the fraction `b/B` of a full turn. -/
theorem C74_spaced {ι : Type} {flt : List Char → Option ℝ} {M : PropM ι} {angle : ℕ → ℝ} {S : List Surf} (h : DrawsProp flt M angle S)
    (b : ℕ) (hb : b < S.length) {i : ℕ} (hi : i < M.geom.nodes) (j : ℕ) :
    (S[b]).P i j - M.geom.position = turn (pointing M.geom.orientation.1 M.geom.orientation.2) (2 * Real.pi * (b / M.geom.blades))
      ((S[0]'(by omega)).P i j - M.geom.position) := by
  obtain ⟨-, o, -, ho⟩ := h
  obtain ⟨-, -, h1⟩ := ho b hb
  obtain ⟨-, -, h0⟩ := ho 0 (by omega)
  have e : ∀ u, rotX 0 u = u := fun u => by simp [rotX]
  rw [h1 i j hi, h0 i j hi, add_sub_cancel_left, add_sub_cancel_left, installed_turn]
  simp only [Nat.cast_zero, zero_div, mul_zero, e]

/-! ### C79 -/

/-- **C79, orientation.** Whatever the twist and dihedral, on both sides: a point `x` forward and `z` down in section
coordinates is drawn at `-x` along the axial vector and `-z` along the normal vector of the lifting-line model. -/
theorem drawn_frame (side : Side) (mount washout dihedral x z : ℝ) :
    body2Fixed ⟨x, 0, z⟩ (quatMult (dihedralQuat side dihedral) (euler2Quat 0 (rad (mount - washout)) 0)) =
    (-x) • (frame side mount washout dihedral).1 + (-z) • (frame side mount washout dihedral).2 := by
  rw [C73_composition, body_rotY]
  have e1 : rad (-dihedral) = -rad dihedral := by unfold rad; ring
  have e2 : dihedral * Real.pi / 180 = rad dihedral := rfl
  have e3 : (mount - washout) * Real.pi / 180 = rad (mount - washout) := rfl
  cases side
  · simp only [dihedralQuat, body_rotX, frame, e2, e3]
    ext <;> simp [rotX, rotY] <;> ring
  · simp only [dihedralQuat, body_rotX, frame, e2, e3, e1]
    ext <;> simp [rotX, rotY] <;> ring

variable {nm : String} {pos : Option V3} {ops : List PlaneOp} {c : Bool} {g : Grid}

/-- **C79.** For every aircraft built through the API: an outline point `x` behind the quarter chord and `y` above the chord
line (in chords; interpolated between the two end airfoils) is drawn at the control point of its section plus `x` chords
along the axial vector plus `y` chords along the normal vector which the lifting-line model uses for this section. -/
theorem C79_orientation (hg : mkGrid (built nm pos ops) c = .ok g) (k : ℕ) (s : Seg) (i : ℕ) (x : GridSec)
    (hx : SectionOf (built nm pos ops) g k s i x) (L R : ℕ → ℝ × ℝ) (j : ℕ) :
    wingPoint s.side L R x j = x.rcp + (x.chord * -((1 - x.sp) * (L j).1 + x.sp * (R j).1)) • x.ua +
      (x.chord * -((1 - x.sp) * (L j).2 + x.sp * (R j).2)) • x.un := by
  obtain ⟨hi, l, r, _, _, _, _, _, rfl⟩ := sectionOf_eq hg hx
  unfold wingPoint
  simp only [GridSec.withIc2, segSection]
  have := drawn_frame s.side s.mount (lerp (sCp c s.n i) (leftRight s.side 0 s.washout).1 (leftRight s.side 0 s.washout).2) s.dihedral
  rw [this]
  ext <;> simp [linInter] <;> ring

end Verif
