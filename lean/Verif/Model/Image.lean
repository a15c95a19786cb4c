import Verif.Model.Detector
import Mathlib.Algebra.BigOperators.Intervals
import Mathlib.Analysis.SpecialFunctions.Exp
import Mathlib.Algebra.Order.Floor.Semiring

/-! Model of the pixel-level helpers of `/repo/xrd_simulator/detector.py`: tensors, kernels, convolution, deposition.

A torch tensor of shape `(h, w)` or `(n, h, w)` is a function of its indices together with its shape; entries outside the shape
are 0 by convention.  Pixel values are exact reals (no float32 / float64 rounding). -/

namespace XRD
open V3 M3 Fl
open Classical

/-- a two-dimensional tensor -/
abbrev Frame := ℕ → ℕ → ℝ
/-- a three-dimensional tensor `(frames, height, width)` -/
abbrev Stack := ℕ → ℕ → ℕ → ℝ

/-- one entry of an accumulating `index_put_` -/
structure Deposit where
  f : ℤ
  z : ℤ
  y : ℤ
  v : ℝ

/-- position addressed by a torch index in an axis of length `n`; negative indices count from the end, others outside the axis
are an `IndexError` -/
def wrapIdx (i : ℤ) (n : ℕ) : Option ℕ :=
  if 0 ≤ i ∧ i < n then some i.toNat else if -n ≤ i ∧ i < 0 then some (i + n).toNat else none

/-- the pixel a deposit addresses -/
def Deposit.target (n h w : ℕ) (d : Deposit) : Option (ℕ × ℕ × ℕ) :=
  match wrapIdx d.f n, wrapIdx d.z h, wrapIdx d.y w with
  | some f, some z, some y => some (f, z, y)
  | _, _, _ => none

/-- `tensor.index_put_((f, z, y), values, accumulate=True)` (detector.py:935-939) -/
noncomputable def indexPut (n h w : ℕ) (t : Stack) (ds : List Deposit) : Except PyErr Stack :=
  if ∃ d ∈ ds, d.target n h w = none then .error .indexError
  else .ok fun f i j => t f i j + ((ds.filter fun d => d.target n h w = some (f, i, j)).map Deposit.v).sum

/-- `torch.round`: to the nearest integer, halves to even -/
noncomputable def roundEven (x : ℝ) : ℤ :=
  if x - ⌊x⌋ < 1 / 2 then ⌊x⌋ else if 1 / 2 < x - ⌊x⌋ then ⌊x⌋ + 1 else if 2 ∣ ⌊x⌋ then ⌊x⌋ else ⌊x⌋ + 1

/-- slices `rows[start:end]` for `start in range(0, len, b)` (detector.py:894-895) -/
def chunks {α : Type} (b : ℕ) (l : List α) : List (List α) :=
  (List.range ((l.length + b - 1) / b)).map fun k : ℕ => (l.drop (k * b)).take b

/-! ### kernels -/

/-- a square kernel -/
structure Kernel where
  size : ℕ
  val : ℕ → ℕ → ℝ

/-- `kernel.sum()` -/
noncomputable def Kernel.total (k : Kernel) : ℝ := ∑ i ∈ Finset.range k.size, ∑ j ∈ Finset.range k.size, k.val i j

/-- `kernel / kernel.sum()` -/
noncomputable def Kernel.normalise (k : Kernel) : Kernel := ⟨k.size, fun i j => k.val i j / k.total⟩

/-- `exp(-(r**2) / (2 * sigma**2))`; for `sigma = 0` the quotient is `-inf` and the value 0 -/
noncomputable def gaussTail (sigma r : ℝ) : ℝ := if sigma = 0 then 0 else Real.exp (-(r ^ 2) / (2 * sigma ^ 2))

namespace Detector

/-- the loop of `_generate_gaussian_kernel` (detector.py:1744-1749) from `radius`, `fuel` iterations left; it stops when the
radius exceeds the maximum or the tail is below half the threshold. -/
noncomputable def gaussRadiusLoop (D : Detector) : ℕ → ℤ → ℤ
  | 0, r => r
  | fuel + 1, r =>
    if r ≤ D.maxRadius then
      if gaussTail D.sigma r < D.threshold / 2 then r else gaussRadiusLoop D fuel (r + 1)
    else r

/-- radius of the point-spread kernel (detector.py:1743-1750).  The fuel is the number of iterations after which the loop
condition is false. -/
noncomputable def gaussRadius (D : Detector) : ℤ := min (gaussRadiusLoop D D.maxRadius.toNat 1) D.maxRadius

/-- `_generate_gaussian_kernel` (detector.py:1752-1759), for a non-negative maximal radius and `sigma > 0` -/
noncomputable def gaussKernel (D : Detector) : Kernel :=
  let r := D.gaussRadius
  Kernel.normalise ⟨(2 * r + 1).toNat, fun i j => Real.exp (-(((i : ℝ) - r) ^ 2 + ((j : ℝ) - r) ^ 2) / (2 * D.sigma ^ 2))⟩

end Detector

/-- `torch.nn.functional.conv2d(frame, kernel, padding=size // 2)` for one `(h, w)` frame and one square kernel of odd size
(detector.py:1712-1718): cross-correlation with zero padding. -/
noncomputable def conv2d (h w : ℕ) (k : Kernel) (t : Frame) : Frame := fun i j =>
  if i < h ∧ j < w then
    ∑ a ∈ Finset.range k.size, ∑ b ∈ Finset.range k.size,
      (if k.size / 2 ≤ i + a ∧ i + a - k.size / 2 < h ∧ k.size / 2 ≤ j + b ∧ j + b - k.size / 2 < w
        then t (i + a - k.size / 2) (j + b - k.size / 2) * k.val a b else 0)
  else 0

/-! ### bilinear deposition -/

/-- the samples of a kernel centred at `(cz, cy)`: position and value (detector.py:1381-1400) -/
noncomputable def kernelSamples (k : Kernel) (cz cy : ℝ) : List (ℝ × ℝ × ℝ) :=
  (List.range k.size).flatMap fun a : ℕ => (List.range k.size).map fun b : ℕ =>
    (cz + ((a : ℝ) - ((k.size / 2 : ℕ) : ℝ)), cy + ((b : ℝ) - ((k.size / 2 : ℕ) : ℝ)), k.val a b)

/-- the four weighted neighbours of one sample (detector.py:1402-1419) -/
noncomputable def corners (s : ℝ × ℝ × ℝ) : List (ℤ × ℤ × ℝ) :=
  let fz := s.1 - ⌊s.1⌋
  let fy := s.2.1 - ⌊s.2.1⌋
  [(⌊s.1⌋, ⌊s.2.1⌋, s.2.2 * ((1 - fz) * (1 - fy))), (⌊s.1⌋, ⌊s.2.1⌋ + 1, s.2.2 * ((1 - fz) * fy)),
   (⌊s.1⌋ + 1, ⌊s.2.1⌋, s.2.2 * (fz * (1 - fy))), (⌊s.1⌋ + 1, ⌊s.2.1⌋ + 1, s.2.2 * (fz * fy))]

/-- `_deposit_kernels_batch` (detector.py:1347-1428): neighbours outside the frame are skipped, the others accumulated. -/
noncomputable def depositKernels (h w : ℕ) (t : Frame) (ks : List (Kernel × ℝ × ℝ)) : Frame := fun i j =>
  t i j + (((ks.flatMap fun k => (kernelSamples k.1 k.2.1 k.2.2).flatMap corners).filter fun c =>
    (0 ≤ c.1 ∧ c.1 < (h : ℤ) ∧ 0 ≤ c.2.1 ∧ c.2.1 < (w : ℤ)) ∧ c.1 = (i : ℤ) ∧ c.2.1 = (j : ℤ)).map fun c => c.2.2).sum

/-! ### cropping and padding -/

/-- sum of the window of half-width `m` around the centre (detector.py:1308-1311) -/
noncomputable def Kernel.windowSum (k : Kernel) (m : ℕ) : ℝ :=
  ∑ i ∈ Finset.Ico (k.size / 2 - m) (min (k.size / 2 + m + 1) k.size),
    ∑ j ∈ Finset.Ico (k.size / 2 - m) (min (k.size / 2 + m + 1) k.size), k.val i j

/-- the binary search (detector.py:1305-1315) -/
noncomputable def cropSearch (k : Kernel) (threshold : ℝ) (left right : ℕ) : ℕ :=
  if h : left < right then
    let mid := (left + right) / 2
    if k.windowSum mid ≥ 1 - threshold then cropSearch k threshold left mid else cropSearch k threshold (mid + 1) right
  else left
termination_by right - left
decreasing_by all_goals omega

/-- the cropped kernel (detector.py:1304-1322).  Slices end at the border, so a window that sticks out (even sizes) is cut. -/
noncomputable def Kernel.crop (k : Kernel) (threshold : ℝ) : Kernel :=
  let c := k.size / 2
  let m := cropSearch k threshold 1 c
  ⟨min (c + m + 1) k.size - (c - m), fun i j => k.val (c - m + i) (c - m + j)⟩

/-- `F.pad` with `pad` zeros on every side (detector.py:1332-1333) -/
noncomputable def Kernel.pad (k : Kernel) (p : ℕ) : Kernel :=
  ⟨k.size + 2 * p, fun i j => if p ≤ i ∧ i < p + k.size ∧ p ≤ j ∧ j < p + k.size then k.val (i - p) (j - p) else 0⟩

end XRD
