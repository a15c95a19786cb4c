import Mathlib.Analysis.Real.Sqrt
import Mathlib.Analysis.SpecialFunctions.Trigonometric.Inverse
import Mathlib.Analysis.SpecialFunctions.Trigonometric.Arctan

/-!
Extended numbers: the value domain used wherever the Python code relies on IEEE special values.
`fin r` is a finite float64 taken as the exact real `r` (no rounding, no overflow); `pinf`, `ninf`, `nan` follow
the IEEE rules.  There is one zero only: `x / 0` is `+inf` for `x > 0`, `-inf` for `x < 0`, `nan` for `0 / 0`.
-/

namespace XRD

inductive Fl where
  | fin (r : ℝ)
  | pinf
  | ninf
  | nan

namespace Fl
open Classical

noncomputable def neg : Fl → Fl
  | fin a => fin (-a) | pinf => ninf | ninf => pinf | nan => nan
noncomputable def add : Fl → Fl → Fl
  | fin a, fin b => fin (a + b)
  | nan, _ => nan | _, nan => nan
  | pinf, ninf => nan | ninf, pinf => nan
  | pinf, _ => pinf | _, pinf => pinf
  | ninf, _ => ninf | _, ninf => ninf
/-- sign of an extended number, as used for products and quotients with infinities -/
noncomputable def infSign (r : ℝ) : Fl := if 0 < r then pinf else if r < 0 then ninf else nan
noncomputable def mul : Fl → Fl → Fl
  | fin a, fin b => fin (a * b)
  | nan, _ => nan | _, nan => nan
  | pinf, pinf => pinf | pinf, ninf => ninf | ninf, pinf => ninf | ninf, ninf => pinf
  | fin a, pinf => infSign a | fin a, ninf => infSign (-a)
  | pinf, fin a => infSign a | ninf, fin a => infSign (-a)
noncomputable def div : Fl → Fl → Fl
  | fin a, fin b => if b = 0 then infSign a else fin (a / b)
  | nan, _ => nan | _, nan => nan
  | fin _, pinf => fin 0 | fin _, ninf => fin 0
  | pinf, fin b => if b < 0 then ninf else pinf
  | ninf, fin b => if b < 0 then pinf else ninf
  | _, _ => nan
noncomputable instance : Neg Fl := ⟨neg⟩
noncomputable instance : Add Fl := ⟨add⟩
noncomputable instance : Sub Fl := ⟨fun a b => add a (neg b)⟩
noncomputable instance : Mul Fl := ⟨mul⟩
noncomputable instance : Div Fl := ⟨div⟩
/-- `<` with NaN unordered -/
def Lt : Fl → Fl → Prop
  | fin a, fin b => a < b
  | fin _, pinf => True | ninf, fin _ => True | ninf, pinf => True
  | _, _ => False
/-- `<=` with NaN unordered -/
def Le : Fl → Fl → Prop
  | fin a, fin b => a ≤ b
  | fin _, pinf => True | ninf, fin _ => True | ninf, pinf => True
  | pinf, pinf => True | ninf, ninf => True
  | _, _ => False
/-- `torch.isfinite` -/
def IsFinite : Fl → Prop
  | fin _ => True | _ => False
/-- `==` (NaN differs from everything) -/
def Eq' : Fl → Fl → Prop
  | fin a, fin b => a = b | pinf, pinf => True | ninf, ninf => True | _, _ => False
/-- `torch.sqrt` -/
noncomputable def sqrt : Fl → Fl
  | fin a => if a < 0 then nan else fin (Real.sqrt a)
  | pinf => pinf | _ => nan
/-- `torch.arctan` -/
noncomputable def arctan : Fl → Fl
  | fin a => fin (Real.arctan a)
  | pinf => fin (Real.pi / 2) | ninf => fin (-(Real.pi / 2)) | nan => nan
/-- `torch.arccos`: NaN outside `[-1,1]` -/
noncomputable def arccos : Fl → Fl
  | fin a => if -1 ≤ a ∧ a ≤ 1 then fin (Real.arccos a) else nan
  | _ => nan
/-- `torch.sin` -/
noncomputable def sin : Fl → Fl
  | fin a => fin (Real.sin a) | _ => nan
/-- `torch.cos` -/
noncomputable def cos : Fl → Fl
  | fin a => fin (Real.cos a) | _ => nan
/-- `torch.abs` -/
noncomputable def abs : Fl → Fl
  | fin a => fin |a| | ninf => pinf | pinf => pinf | nan => nan

@[simp] theorem neg_fin (a : ℝ) : -(fin a) = fin (-a) := rfl
@[simp] theorem add_fin (a b : ℝ) : fin a + fin b = fin (a + b) := rfl
@[simp] theorem sub_fin (a b : ℝ) : fin a - fin b = fin (a - b) := by
  show fin (a + -b) = _; rw [sub_eq_add_neg]
@[simp] theorem mul_fin (a b : ℝ) : fin a * fin b = fin (a * b) := rfl
theorem div_fin (a b : ℝ) : fin a / fin b = if b = 0 then infSign a else fin (a / b) := rfl
theorem div_fin_ne {a b : ℝ} (h : b ≠ 0) : fin a / fin b = fin (a / b) := by rw [div_fin, if_neg h]
@[simp] theorem neg_nan : -nan = nan := rfl
@[simp] theorem nan_add (a : Fl) : nan + a = nan := by cases a <;> rfl
@[simp] theorem add_nan (a : Fl) : a + nan = nan := by cases a <;> rfl
@[simp] theorem nan_sub (a : Fl) : nan - a = nan := by cases a <;> rfl
@[simp] theorem sub_nan (a : Fl) : a - nan = nan := by cases a <;> rfl
@[simp] theorem nan_mul (a : Fl) : nan * a = nan := by cases a <;> rfl
@[simp] theorem mul_nan (a : Fl) : a * nan = nan := by cases a <;> rfl
@[simp] theorem nan_div (a : Fl) : nan / a = nan := by cases a <;> rfl
@[simp] theorem div_nan (a : Fl) : a / nan = nan := by cases a <;> rfl
@[simp] theorem le_fin (a b : ℝ) : Le (fin a) (fin b) ↔ a ≤ b := Iff.rfl
@[simp] theorem lt_fin (a b : ℝ) : Lt (fin a) (fin b) ↔ a < b := Iff.rfl
@[simp] theorem not_le_nan (a : Fl) : ¬ Le a nan := by cases a <;> exact id
@[simp] theorem not_nan_le (a : Fl) : ¬ Le nan a := by cases a <;> exact id
@[simp] theorem not_lt_nan (a : Fl) : ¬ Lt a nan := by cases a <;> exact id
@[simp] theorem not_nan_lt (a : Fl) : ¬ Lt nan a := by cases a <;> exact id
@[simp] theorem isFinite_fin (a : ℝ) : IsFinite (fin a) := trivial
@[simp] theorem not_isFinite_nan : ¬ IsFinite nan := id
@[simp] theorem not_isFinite_pinf : ¬ IsFinite pinf := id
@[simp] theorem not_isFinite_ninf : ¬ IsFinite ninf := id
theorem isFinite_iff {a : Fl} : IsFinite a ↔ ∃ r, a = fin r := by
  cases a <;> simp [IsFinite]
@[simp] theorem arctan_fin (a : ℝ) : arctan (fin a) = fin (Real.arctan a) := rfl
@[simp] theorem arctan_nan : arctan nan = nan := rfl
@[simp] theorem sqrt_nan : sqrt nan = nan := rfl
theorem sqrt_fin {a : ℝ} (h : 0 ≤ a) : sqrt (fin a) = fin (Real.sqrt a) := by
  simp [sqrt, not_lt.mpr h]
theorem arccos_fin {a : ℝ} (h1 : -1 ≤ a) (h2 : a ≤ 1) : arccos (fin a) = fin (Real.arccos a) := by
  simp [arccos, h1, h2]
@[simp] theorem sin_fin (a : ℝ) : sin (fin a) = fin (Real.sin a) := rfl
@[simp] theorem cos_fin (a : ℝ) : cos (fin a) = fin (Real.cos a) := rfl
@[simp] theorem abs_fin (a : ℝ) : abs (fin a) = fin |a| := rfl
end Fl

/-- Exceptions raised by the modelled Python code. -/
inductive PyErr where
  | assertion | valueError | typeError | indexError | runtimeError | zeroDivision | notImplemented | keyError | osError
  deriving DecidableEq, Repr
end XRD

namespace XRD.Fl
theorem isFinite_add {a b : Fl} : IsFinite (a + b) ↔ IsFinite a ∧ IsFinite b := by
  cases a <;> cases b <;>
    first
    | exact iff_of_true trivial ⟨trivial, trivial⟩
    | exact iff_of_false id (fun h => h.1)
    | exact iff_of_false id (fun h => h.2)
theorem isFinite_neg {a : Fl} : IsFinite (-a) ↔ IsFinite a := by
  cases a <;> exact Iff.rfl
theorem isFinite_sub {a b : Fl} : IsFinite (a - b) ↔ IsFinite a ∧ IsFinite b := by
  show IsFinite (a + -b) ↔ _
  rw [isFinite_add, isFinite_neg]
theorem not_isFinite_infSign (r : ℝ) : ¬ IsFinite (infSign r) := by
  unfold infSign; split_ifs <;> exact id
theorem isFinite_mul {a b : Fl} : IsFinite (a * b) ↔ IsFinite a ∧ IsFinite b := by
  cases a <;> cases b <;>
    first
    | exact iff_of_true trivial ⟨trivial, trivial⟩
    | exact iff_of_false id (fun h => h.1)
    | exact iff_of_false id (fun h => h.2)
    | exact iff_of_false (not_isFinite_infSign _) (fun h => h.1)
    | exact iff_of_false (not_isFinite_infSign _) (fun h => h.2)
theorem isFinite_of_between {a : Fl} {x y : ℝ} (h1 : Le (fin x) a) (h2 : Le a (fin y)) : IsFinite a := by
  cases a
  · trivial
  · exact h2.elim
  · exact h1.elim
  · exact h1.elim
end XRD.Fl
