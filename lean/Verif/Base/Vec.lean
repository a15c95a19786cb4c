import Mathlib.Analysis.Real.Sqrt
import Mathlib.Analysis.SpecialFunctions.Trigonometric.Basic
import Mathlib.Algebra.Module.Basic
import Mathlib.Tactic.Ring
import Mathlib.Tactic.Module
import Mathlib.Tactic.Linarith
import Mathlib.Tactic.LinearCombination
import Mathlib.Tactic.FieldSimp

/-!
Mathematical vocabulary: vectors of `ℝ³` and 3x3 matrices with explicit entries.
These stand for torch tensors of shape `(3,)` and `(3,3)`; they carry no modelling decisions of their own.
-/

namespace XRD

/-- A vector of `ℝ³`. -/
@[ext] structure V3 where
  x : ℝ
  y : ℝ
  z : ℝ

namespace V3
instance : Zero V3 := ⟨⟨0, 0, 0⟩⟩
instance : Add V3 := ⟨fun a b => ⟨a.x + b.x, a.y + b.y, a.z + b.z⟩⟩
instance : Sub V3 := ⟨fun a b => ⟨a.x - b.x, a.y - b.y, a.z - b.z⟩⟩
instance : Neg V3 := ⟨fun a => ⟨-a.x, -a.y, -a.z⟩⟩
instance : SMul ℝ V3 := ⟨fun c a => ⟨c * a.x, c * a.y, c * a.z⟩⟩

@[simp] theorem zero_x : (0 : V3).x = 0 := rfl
@[simp] theorem zero_y : (0 : V3).y = 0 := rfl
@[simp] theorem zero_z : (0 : V3).z = 0 := rfl
@[simp] theorem add_x (a b : V3) : (a + b).x = a.x + b.x := rfl
@[simp] theorem add_y (a b : V3) : (a + b).y = a.y + b.y := rfl
@[simp] theorem add_z (a b : V3) : (a + b).z = a.z + b.z := rfl
@[simp] theorem sub_x (a b : V3) : (a - b).x = a.x - b.x := rfl
@[simp] theorem sub_y (a b : V3) : (a - b).y = a.y - b.y := rfl
@[simp] theorem sub_z (a b : V3) : (a - b).z = a.z - b.z := rfl
@[simp] theorem neg_x (a : V3) : (-a).x = -a.x := rfl
@[simp] theorem neg_y (a : V3) : (-a).y = -a.y := rfl
@[simp] theorem neg_z (a : V3) : (-a).z = -a.z := rfl
@[simp] theorem smul_x (c : ℝ) (a : V3) : (c • a).x = c * a.x := rfl
@[simp] theorem smul_y (c : ℝ) (a : V3) : (c • a).y = c * a.y := rfl
@[simp] theorem smul_z (c : ℝ) (a : V3) : (c • a).z = c * a.z := rfl

instance : AddCommGroup V3 where
  add_assoc a b c := by ext <;> simp [add_assoc]
  zero_add a := by ext <;> simp
  add_zero a := by ext <;> simp
  add_comm a b := by ext <;> simp [add_comm]
  neg_add_cancel a := by ext <;> simp
  sub_eq_add_neg a b := by ext <;> simp [sub_eq_add_neg]
  nsmul := nsmulRec
  zsmul := zsmulRec

instance : Module ℝ V3 where
  one_smul a := by ext <;> simp
  mul_smul c d a := by ext <;> simp [mul_assoc]
  smul_zero c := by ext <;> simp
  smul_add c a b := by ext <;> simp [mul_add]
  add_smul c d a := by ext <;> simp [add_mul]
  zero_smul a := by ext <;> simp

/-- Scalar product. -/
def dot (a b : V3) : ℝ := a.x * b.x + a.y * b.y + a.z * b.z
/-- Cross product. -/
def cross (a b : V3) : V3 :=
  ⟨a.y * b.z - a.z * b.y, a.z * b.x - a.x * b.z, a.x * b.y - a.y * b.x⟩
/-- Squared Euclidean length. -/
def nsq (a : V3) : ℝ := a.dot a
/-- Euclidean length. -/
noncomputable def norm (a : V3) : ℝ := Real.sqrt a.nsq
/-- Euclidean distance. -/
noncomputable def dist (a b : V3) : ℝ := norm (a - b)

theorem nsq_nonneg (a : V3) : 0 ≤ a.nsq := by
  unfold nsq dot; nlinarith [mul_self_nonneg a.x, mul_self_nonneg a.y, mul_self_nonneg a.z]
theorem norm_nonneg (a : V3) : 0 ≤ a.norm := Real.sqrt_nonneg _
theorem norm_sq (a : V3) : a.norm ^ 2 = a.nsq := Real.sq_sqrt (nsq_nonneg a)
theorem norm_mul_self (a : V3) : a.norm * a.norm = a.nsq := Real.mul_self_sqrt (nsq_nonneg a)
theorem nsq_eq_zero {a : V3} : a.nsq = 0 ↔ a = 0 := by
  constructor
  · intro h
    unfold nsq dot at h
    have hx := mul_self_nonneg a.x
    have hy := mul_self_nonneg a.y
    have hz := mul_self_nonneg a.z
    ext
    · exact mul_self_eq_zero.mp (by linarith)
    · exact mul_self_eq_zero.mp (by linarith)
    · exact mul_self_eq_zero.mp (by linarith)
  · rintro rfl; simp [nsq, dot]
theorem norm_eq_zero {a : V3} : a.norm = 0 ↔ a = 0 := by
  unfold norm; rw [Real.sqrt_eq_zero (nsq_nonneg a), nsq_eq_zero]
theorem norm_pos {a : V3} : 0 < a.norm ↔ a ≠ 0 := by
  rw [lt_iff_le_and_ne]
  constructor
  · rintro ⟨_, h⟩ rfl; exact h (norm_eq_zero.mpr rfl).symm
  · intro h; exact ⟨norm_nonneg a, fun h' => h (norm_eq_zero.mp h'.symm)⟩
theorem norm_eq_iff {a b : V3} : a.norm = b.norm ↔ a.nsq = b.nsq :=
  Real.sqrt_inj (nsq_nonneg a) (nsq_nonneg b)
theorem norm_eq_one {a : V3} : a.norm = 1 ↔ a.nsq = 1 := by
  unfold norm; rw [Real.sqrt_eq_one]
theorem dot_comm (a b : V3) : a.dot b = b.dot a := by simp only [dot]; ring
theorem dot_self (a : V3) : a.dot a = a.nsq := rfl
/-- Lagrange identity. -/
theorem lagrange (a b : V3) : (a.cross b).nsq = a.nsq * b.nsq - (a.dot b) ^ 2 := by
  simp only [nsq, dot, cross]; ring
/-- Cauchy-Schwarz, squared. -/
theorem dot_sq_le (a b : V3) : (a.dot b) ^ 2 ≤ a.nsq * b.nsq := by
  have := nsq_nonneg (a.cross b); rw [lagrange] at this; linarith
/-- Cauchy-Schwarz. -/
theorem abs_dot_le (a b : V3) : |a.dot b| ≤ a.norm * b.norm := by
  rw [← Real.sqrt_sq_eq_abs]
  unfold norm
  rw [← Real.sqrt_mul (nsq_nonneg a)]
  exact Real.sqrt_le_sqrt (dot_sq_le a b)
theorem dot_le (a b : V3) : a.dot b ≤ a.norm * b.norm := le_trans (le_abs_self _) (abs_dot_le a b)
theorem norm_smul (c : ℝ) (a : V3) : (c • a).norm = |c| * a.norm := by
  unfold norm
  rw [← Real.sqrt_sq_eq_abs, ← Real.sqrt_mul (sq_nonneg c)]
  congr 1; simp only [nsq, dot, smul_x, smul_y, smul_z]; ring
theorem norm_neg (a : V3) : (-a).norm = a.norm := by
  rw [norm_eq_iff]; simp only [nsq, dot, neg_x, neg_y, neg_z]; ring
theorem norm_add_le (a b : V3) : (a + b).norm ≤ a.norm + b.norm := by
  have h : (a + b).nsq ≤ (a.norm + b.norm) ^ 2 := by
    have h1 : (a + b).nsq = a.nsq + 2 * a.dot b + b.nsq := by
      simp only [nsq, dot, add_x, add_y, add_z]; ring
    rw [h1, ← norm_sq a, ← norm_sq b]; nlinarith [dot_le a b]
  calc (a + b).norm = Real.sqrt (a + b).nsq := rfl
    _ ≤ Real.sqrt ((a.norm + b.norm) ^ 2) := Real.sqrt_le_sqrt h
    _ = a.norm + b.norm := Real.sqrt_sq (add_nonneg (norm_nonneg a) (norm_nonneg b))
end V3

/-- A 3x3 matrix, given by its rows. -/
@[ext] structure M3 where
  r0 : V3
  r1 : V3
  r2 : V3

namespace M3
open V3
/-- matrix times column vector -/
def mulVec (m : M3) (v : V3) : V3 := ⟨m.r0.dot v, m.r1.dot v, m.r2.dot v⟩
/-- row vector times matrix -/
def vecMul (v : V3) (m : M3) : V3 :=
  ⟨v.x * m.r0.x + v.y * m.r1.x + v.z * m.r2.x,
   v.x * m.r0.y + v.y * m.r1.y + v.z * m.r2.y,
   v.x * m.r0.z + v.y * m.r1.z + v.z * m.r2.z⟩
/-- transpose -/
def tr (m : M3) : M3 :=
  ⟨⟨m.r0.x, m.r1.x, m.r2.x⟩, ⟨m.r0.y, m.r1.y, m.r2.y⟩, ⟨m.r0.z, m.r1.z, m.r2.z⟩⟩
/-- matrix product -/
def mul (a b : M3) : M3 := ⟨vecMul a.r0 b, vecMul a.r1 b, vecMul a.r2 b⟩
instance : Mul M3 := ⟨mul⟩
instance : One M3 := ⟨⟨⟨1, 0, 0⟩, ⟨0, 1, 0⟩, ⟨0, 0, 1⟩⟩⟩
instance : Zero M3 := ⟨⟨0, 0, 0⟩⟩
instance : Add M3 := ⟨fun a b => ⟨a.r0 + b.r0, a.r1 + b.r1, a.r2 + b.r2⟩⟩
instance : Sub M3 := ⟨fun a b => ⟨a.r0 - b.r0, a.r1 - b.r1, a.r2 - b.r2⟩⟩
instance : Neg M3 := ⟨fun a => ⟨-a.r0, -a.r1, -a.r2⟩⟩
instance : SMul ℝ M3 := ⟨fun c a => ⟨c • a.r0, c • a.r1, c • a.r2⟩⟩
/-- trace -/
def trace (m : M3) : ℝ := m.r0.x + m.r1.y + m.r2.z
/-- determinant -/
def det (m : M3) : ℝ :=
  m.r0.x * (m.r1.y * m.r2.z - m.r1.z * m.r2.y)
  - m.r0.y * (m.r1.x * m.r2.z - m.r1.z * m.r2.x)
  + m.r0.z * (m.r1.x * m.r2.y - m.r1.y * m.r2.x)
/-- adjugate divided by determinant: the inverse (`torch.linalg.inv`) when `det ≠ 0` -/
noncomputable def inv (m : M3) : M3 :=
  (1 / m.det) •
  (⟨⟨m.r1.y * m.r2.z - m.r1.z * m.r2.y, m.r0.z * m.r2.y - m.r0.y * m.r2.z, m.r0.y * m.r1.z - m.r0.z * m.r1.y⟩,
    ⟨m.r1.z * m.r2.x - m.r1.x * m.r2.z, m.r0.x * m.r2.z - m.r0.z * m.r2.x, m.r0.z * m.r1.x - m.r0.x * m.r1.z⟩,
    ⟨m.r1.x * m.r2.y - m.r1.y * m.r2.x, m.r0.y * m.r2.x - m.r0.x * m.r2.y, m.r0.x * m.r1.y - m.r0.y * m.r1.x⟩⟩ : M3)

@[simp] theorem one_r0 : (1 : M3).r0 = ⟨1, 0, 0⟩ := rfl
@[simp] theorem one_r1 : (1 : M3).r1 = ⟨0, 1, 0⟩ := rfl
@[simp] theorem one_r2 : (1 : M3).r2 = ⟨0, 0, 1⟩ := rfl
@[simp] theorem zero_r0 : (0 : M3).r0 = 0 := rfl
@[simp] theorem zero_r1 : (0 : M3).r1 = 0 := rfl
@[simp] theorem zero_r2 : (0 : M3).r2 = 0 := rfl
@[simp] theorem add_r0 (a b : M3) : (a + b).r0 = a.r0 + b.r0 := rfl
@[simp] theorem add_r1 (a b : M3) : (a + b).r1 = a.r1 + b.r1 := rfl
@[simp] theorem add_r2 (a b : M3) : (a + b).r2 = a.r2 + b.r2 := rfl
@[simp] theorem sub_r0 (a b : M3) : (a - b).r0 = a.r0 - b.r0 := rfl
@[simp] theorem sub_r1 (a b : M3) : (a - b).r1 = a.r1 - b.r1 := rfl
@[simp] theorem sub_r2 (a b : M3) : (a - b).r2 = a.r2 - b.r2 := rfl
@[simp] theorem neg_r0 (a : M3) : (-a).r0 = -a.r0 := rfl
@[simp] theorem neg_r1 (a : M3) : (-a).r1 = -a.r1 := rfl
@[simp] theorem neg_r2 (a : M3) : (-a).r2 = -a.r2 := rfl
@[simp] theorem smul_r0 (c : ℝ) (a : M3) : (c • a).r0 = c • a.r0 := rfl
@[simp] theorem smul_r1 (c : ℝ) (a : M3) : (c • a).r1 = c • a.r1 := rfl
@[simp] theorem smul_r2 (c : ℝ) (a : M3) : (c • a).r2 = c • a.r2 := rfl
@[simp] theorem mul_r0 (a b : M3) : (a * b).r0 = vecMul a.r0 b := rfl
@[simp] theorem mul_r1 (a b : M3) : (a * b).r1 = vecMul a.r1 b := rfl
@[simp] theorem mul_r2 (a b : M3) : (a * b).r2 = vecMul a.r2 b := rfl

theorem mul_assoc' (a b c : M3) : a * b * c = a * (b * c) := by
  ext <;> simp [vecMul] <;> ring
theorem mulVec_mul (a b : M3) (v : V3) : (a * b).mulVec v = a.mulVec (b.mulVec v) := by
  ext <;> simp [vecMul, mulVec, V3.dot] <;> ring
theorem one_mul' (a : M3) : 1 * a = a := by ext <;> simp [vecMul]
theorem mul_one' (a : M3) : a * 1 = a := by ext <;> simp [vecMul]
theorem one_mulVec (v : V3) : (1 : M3).mulVec v = v := by ext <;> simp [mulVec, V3.dot]
theorem tr_tr (a : M3) : a.tr.tr = a := rfl
theorem tr_mul (a b : M3) : (a * b).tr = b.tr * a.tr := by
  ext <;> simp [vecMul, tr] <;> ring
theorem tr_one : (1 : M3).tr = 1 := rfl
theorem det_mul (a b : M3) : (a * b).det = a.det * b.det := by
  simp only [det, mul_r0, mul_r1, mul_r2, vecMul]; ring
theorem det_tr (a : M3) : a.tr.det = a.det := by simp only [det, tr]; ring
theorem det_one : (1 : M3).det = 1 := by simp [det]
theorem mulVec_add (a : M3) (u v : V3) : a.mulVec (u + v) = a.mulVec u + a.mulVec v := by
  ext <;> simp [mulVec, V3.dot] <;> ring
theorem mulVec_sub (a : M3) (u v : V3) : a.mulVec (u - v) = a.mulVec u - a.mulVec v := by
  ext <;> simp [mulVec, V3.dot] <;> ring
theorem mulVec_smul (a : M3) (c : ℝ) (v : V3) : a.mulVec (c • v) = c • a.mulVec v := by
  ext <;> simp [mulVec, V3.dot] <;> ring
theorem mulVec_neg (a : M3) (v : V3) : a.mulVec (-v) = -a.mulVec v := by
  ext <;> simp [mulVec, V3.dot] <;> ring
theorem mulVec_zero (a : M3) : a.mulVec 0 = 0 := by ext <;> simp [mulVec, V3.dot]
theorem dot_mulVec (a : M3) (u v : V3) : u.dot (a.mulVec v) = (a.tr.mulVec u).dot v := by
  simp [mulVec, V3.dot, tr]; ring
theorem vecMul_dot (a : M3) (u v : V3) : (vecMul u a).dot v = u.dot (a.mulVec v) := by
  simp [mulVec, V3.dot, vecMul]; ring

/-- rotation: orthogonal with determinant one -/
def IsRot (m : M3) : Prop := m.tr * m = 1 ∧ m * m.tr = 1 ∧ m.det = 1

theorem IsRot.nsq_mulVec {m : M3} (h : m.tr * m = 1) (v : V3) : (m.mulVec v).nsq = v.nsq := by
  unfold V3.nsq; rw [dot_mulVec, ← mulVec_mul, h, one_mulVec]
theorem IsRot.dot_mulVec {m : M3} (h : m.tr * m = 1) (u v : V3) :
    (m.mulVec u).dot (m.mulVec v) = u.dot v := by
  rw [M3.dot_mulVec, ← mulVec_mul, h, one_mulVec]

theorem inv_mul {m : M3} (h : m.det ≠ 0) : m.inv * m = 1 := by
  have h' : 1 / m.det * m.det = 1 := by field_simp
  unfold inv
  generalize 1 / m.det = c at *
  simp only [det] at h'
  ext <;> simp only [mul_r0, mul_r1, mul_r2, smul_r0, smul_r1, smul_r2, vecMul, smul_x, smul_y, smul_z,
    one_r0, one_r1, one_r2]
  all_goals first
    | ring1
    | linear_combination h'
theorem mul_inv {m : M3} (h : m.det ≠ 0) : m * m.inv = 1 := by
  have h' : 1 / m.det * m.det = 1 := by field_simp
  unfold inv
  generalize 1 / m.det = c at *
  simp only [det] at h'
  ext <;> simp only [mul_r0, mul_r1, mul_r2, smul_r0, smul_r1, smul_r2, vecMul, smul_x, smul_y, smul_z,
    one_r0, one_r1, one_r2]
  all_goals first
    | ring1
    | linear_combination h'
/-- A left inverse of an invertible matrix is `inv`. -/
theorem inv_unique {m n : M3} (h : m.det ≠ 0) (hn : n * m = 1) : m.inv = n := by
  have : n * m * m.inv = m.inv := by rw [hn, one_mul']
  rw [mul_assoc', mul_inv h, mul_one'] at this; exact this.symm
theorem det_inv {m : M3} (h : m.det ≠ 0) : m.inv.det = 1 / m.det := by
  have := congrArg det (inv_mul h)
  rw [det_mul, det_one] at this; field_simp; exact this
end M3
end XRD
