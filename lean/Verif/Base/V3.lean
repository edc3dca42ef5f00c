import Mathlib.Analysis.SpecialFunctions.Sqrt
import Mathlib.Algebra.Module.Basic
import Mathlib.Algebra.BigOperators.Group.Finset.Basic
import Mathlib.Tactic.Ring
import Mathlib.Tactic.LinearCombination
import Mathlib.Tactic.Linarith
import Mathlib.Tactic.Positivity
import Mathlib.Tactic.FieldSimp

/-!
# Three-component vectors

The numpy arrays of shape `(3,)` that MachUp_Py uses for points, velocities and forces, with
`np.dot` / `einsum('..k,..k->..')`, `np.cross` and `np.linalg.norm`.
-/

namespace Verif

/-- A numpy 3-vector. -/
@[ext] structure V3 where
  x : ℝ
  y : ℝ
  z : ℝ

namespace V3

instance : Zero V3 := ⟨⟨0, 0, 0⟩⟩
instance : Add V3 := ⟨fun a b => ⟨a.x + b.x, a.y + b.y, a.z + b.z⟩⟩
instance : Neg V3 := ⟨fun a => ⟨-a.x, -a.y, -a.z⟩⟩
instance : Sub V3 := ⟨fun a b => ⟨a.x - b.x, a.y - b.y, a.z - b.z⟩⟩
instance : SMul ℝ V3 := ⟨fun k a => ⟨k * a.x, k * a.y, k * a.z⟩⟩

@[simp] theorem zero_x : (0 : V3).x = 0 := rfl
@[simp] theorem zero_y : (0 : V3).y = 0 := rfl
@[simp] theorem zero_z : (0 : V3).z = 0 := rfl
@[simp] theorem add_x (a b : V3) : (a + b).x = a.x + b.x := rfl
@[simp] theorem add_y (a b : V3) : (a + b).y = a.y + b.y := rfl
@[simp] theorem add_z (a b : V3) : (a + b).z = a.z + b.z := rfl
@[simp] theorem neg_x (a : V3) : (-a).x = -a.x := rfl
@[simp] theorem neg_y (a : V3) : (-a).y = -a.y := rfl
@[simp] theorem neg_z (a : V3) : (-a).z = -a.z := rfl
@[simp] theorem sub_x (a b : V3) : (a - b).x = a.x - b.x := rfl
@[simp] theorem sub_y (a b : V3) : (a - b).y = a.y - b.y := rfl
@[simp] theorem sub_z (a b : V3) : (a - b).z = a.z - b.z := rfl
@[simp] theorem smul_x (k : ℝ) (a : V3) : (k • a).x = k * a.x := rfl
@[simp] theorem smul_y (k : ℝ) (a : V3) : (k • a).y = k * a.y := rfl
@[simp] theorem smul_z (k : ℝ) (a : V3) : (k • a).z = k * a.z := rfl

instance : AddCommGroup V3 where
  add_assoc a b c := by ext <;> simp [add_assoc]
  zero_add a := by ext <;> simp
  add_zero a := by ext <;> simp
  nsmul := nsmulRec
  zsmul := zsmulRec
  neg_add_cancel a := by ext <;> simp
  add_comm a b := by ext <;> simp [add_comm]
  sub_eq_add_neg a b := by ext <;> simp [sub_eq_add_neg]

instance : Module ℝ V3 where
  one_smul a := by ext <;> simp
  mul_smul k l a := by ext <;> simp [mul_assoc]
  smul_zero k := by ext <;> simp
  smul_add k a b := by ext <;> simp [mul_add]
  add_smul k l a := by ext <;> simp [add_mul]
  zero_smul a := by ext <;> simp

/-- `np.dot(a, b)` / `einsum('ij,ij->i')`. -/
def dot (a b : V3) : ℝ := a.x * b.x + a.y * b.y + a.z * b.z

/-- `np.cross(a, b)`. -/
def cross (a b : V3) : V3 :=
  ⟨a.y * b.z - a.z * b.y, a.z * b.x - a.x * b.z, a.x * b.y - a.y * b.x⟩

/-- `np.linalg.norm(a)` / `np.sqrt(einsum('ij,ij->i', a, a))`. -/
noncomputable def nrm (a : V3) : ℝ := Real.sqrt (dot a a)

@[simp] theorem cross_x (a b : V3) : (cross a b).x = a.y * b.z - a.z * b.y := rfl
@[simp] theorem cross_y (a b : V3) : (cross a b).y = a.z * b.x - a.x * b.z := rfl
@[simp] theorem cross_z (a b : V3) : (cross a b).z = a.x * b.y - a.y * b.x := rfl

/-- component maps as additive homomorphisms, for sums -/
def xHom : V3 →+ ℝ where toFun := V3.x; map_zero' := rfl; map_add' _ _ := rfl
def yHom : V3 →+ ℝ where toFun := V3.y; map_zero' := rfl; map_add' _ _ := rfl
def zHom : V3 →+ ℝ where toFun := V3.z; map_zero' := rfl; map_add' _ _ := rfl

theorem sum_x {ι : Type*} (s : Finset ι) (f : ι → V3) : (∑ i ∈ s, f i).x = ∑ i ∈ s, (f i).x :=
  map_sum xHom f s
theorem sum_y {ι : Type*} (s : Finset ι) (f : ι → V3) : (∑ i ∈ s, f i).y = ∑ i ∈ s, (f i).y :=
  map_sum yHom f s
theorem sum_z {ι : Type*} (s : Finset ι) (f : ι → V3) : (∑ i ∈ s, f i).z = ∑ i ∈ s, (f i).z :=
  map_sum zHom f s

theorem dot_comm (a b : V3) : dot a b = dot b a := by simp [dot]; ring
theorem dot_add (a b c : V3) : dot a (b + c) = dot a b + dot a c := by simp [dot]; ring
theorem add_dot (a b c : V3) : dot (a + b) c = dot a c + dot b c := by simp [dot]; ring
theorem dot_sub (a b c : V3) : dot a (b - c) = dot a b - dot a c := by simp [dot]; ring
theorem sub_dot (a b c : V3) : dot (a - b) c = dot a c - dot b c := by simp [dot]; ring
theorem dot_smul (k : ℝ) (a b : V3) : dot a (k • b) = k * dot a b := by simp [dot]; ring
theorem smul_dot (k : ℝ) (a b : V3) : dot (k • a) b = k * dot a b := by simp [dot]; ring
@[simp] theorem dot_zero (a : V3) : dot a 0 = 0 := by simp [dot]
@[simp] theorem zero_dot (a : V3) : dot 0 a = 0 := by simp [dot]
theorem dot_neg (a b : V3) : dot a (-b) = - dot a b := by simp [dot]; ring
theorem neg_dot (a b : V3) : dot (-a) b = - dot a b := by simp [dot]; ring

theorem cross_add (a b c : V3) : cross a (b + c) = cross a b + cross a c := by
  ext <;> simp <;> ring
theorem add_cross (a b c : V3) : cross (a + b) c = cross a c + cross b c := by
  ext <;> simp <;> ring
theorem cross_sub (a b c : V3) : cross a (b - c) = cross a b - cross a c := by
  ext <;> simp <;> ring
theorem sub_cross (a b c : V3) : cross (a - b) c = cross a c - cross b c := by
  ext <;> simp <;> ring
theorem cross_smul (k : ℝ) (a b : V3) : cross a (k • b) = k • cross a b := by
  ext <;> simp <;> ring
theorem smul_cross (k : ℝ) (a b : V3) : cross (k • a) b = k • cross a b := by
  ext <;> simp <;> ring
theorem cross_neg (a b : V3) : cross a (-b) = - cross a b := by
  ext <;> simp <;> ring
theorem neg_cross (a b : V3) : cross (-a) b = - cross a b := by
  ext <;> simp <;> ring
theorem cross_anticomm (a b : V3) : cross a b = - cross b a := by
  ext <;> simp <;> ring
@[simp] theorem cross_self (a : V3) : cross a a = 0 := by
  ext <;> simp <;> ring
@[simp] theorem cross_zero (a : V3) : cross a 0 = 0 := by
  ext <;> simp
@[simp] theorem zero_cross (a : V3) : cross 0 a = 0 := by
  ext <;> simp
theorem dot_cross_self (a b : V3) : dot a (cross a b) = 0 := by simp [dot]; ring
theorem dot_cross_self' (a b : V3) : dot b (cross a b) = 0 := by simp [dot]; ring

theorem dot_self_nonneg (a : V3) : 0 ≤ dot a a := by
  simp only [dot]; nlinarith [mul_self_nonneg a.x, mul_self_nonneg a.y, mul_self_nonneg a.z]

theorem dot_self_eq_zero {a : V3} : dot a a = 0 ↔ a = 0 := by
  constructor
  · intro h
    simp only [dot] at h
    have hx := mul_self_nonneg a.x
    have hy := mul_self_nonneg a.y
    have hz := mul_self_nonneg a.z
    ext
    · exact mul_self_eq_zero.mp (by linarith)
    · exact mul_self_eq_zero.mp (by linarith)
    · exact mul_self_eq_zero.mp (by linarith)
  · rintro rfl; simp

theorem nrm_nonneg (a : V3) : 0 ≤ nrm a := Real.sqrt_nonneg _
theorem nrm_mul_self (a : V3) : nrm a * nrm a = dot a a := Real.mul_self_sqrt (dot_self_nonneg a)
theorem nrm_sq (a : V3) : nrm a ^ 2 = dot a a := by rw [sq, nrm_mul_self]
theorem nrm_eq_zero {a : V3} : nrm a = 0 ↔ a = 0 := by
  rw [nrm, Real.sqrt_eq_zero (dot_self_nonneg a), dot_self_eq_zero]
theorem nrm_pos {a : V3} (h : a ≠ 0) : 0 < nrm a :=
  lt_of_le_of_ne (nrm_nonneg a) (fun h' => h (nrm_eq_zero.mp h'.symm))
@[simp] theorem nrm_zero : nrm 0 = 0 := nrm_eq_zero.mpr rfl
theorem nrm_smul (k : ℝ) (a : V3) : nrm (k • a) = |k| * nrm a := by
  rw [nrm, smul_dot, dot_smul, ← mul_assoc, Real.sqrt_mul (mul_self_nonneg k),
    Real.sqrt_mul_self_eq_abs, nrm]
theorem nrm_smul_pos {k : ℝ} (hk : 0 < k) (a : V3) : nrm (k • a) = k * nrm a := by
  rw [nrm_smul, abs_of_pos hk]
theorem nrm_neg (a : V3) : nrm (-a) = nrm a := by simp [nrm, dot]

/-- Lagrange's identity. -/
theorem lagrange (a b : V3) : dot (cross a b) (cross a b) + dot a b ^ 2 = dot a a * dot b b := by
  simp [dot]; ring

theorem abs_dot_le (a b : V3) : |dot a b| ≤ nrm a * nrm b := by
  apply abs_le_of_sq_le_sq _ (mul_nonneg (nrm_nonneg a) (nrm_nonneg b))
  rw [mul_pow, nrm_sq, nrm_sq, ← lagrange]
  nlinarith [dot_self_nonneg (cross a b)]

theorem dot_le (a b : V3) : dot a b ≤ nrm a * nrm b := (le_abs_self _).trans (abs_dot_le a b)
theorem neg_le_dot (a b : V3) : -(nrm a * nrm b) ≤ dot a b :=
  neg_le_of_abs_le (abs_dot_le a b)

/-- Reflection in the x-z plane (the aircraft's plane of symmetry). -/
def mir (a : V3) : V3 := ⟨a.x, -a.y, a.z⟩

@[simp] theorem mir_x (a : V3) : (mir a).x = a.x := rfl
@[simp] theorem mir_y (a : V3) : (mir a).y = -a.y := rfl
@[simp] theorem mir_z (a : V3) : (mir a).z = a.z := rfl
@[simp] theorem mir_mir (a : V3) : mir (mir a) = a := by ext <;> simp
theorem mir_add (a b : V3) : mir (a + b) = mir a + mir b := by ext <;> simp; ring
theorem mir_sub (a b : V3) : mir (a - b) = mir a - mir b := by ext <;> simp; ring
theorem mir_neg (a : V3) : mir (-a) = -mir a := by ext <;> simp
theorem mir_smul (k : ℝ) (a : V3) : mir (k • a) = k • mir a := by ext <;> simp
@[simp] theorem mir_zero : mir 0 = 0 := by ext <;> simp

end V3
end Verif
