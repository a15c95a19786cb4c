import Verif.Model.Render

/-! Model of `_print_progress` (utils.py:95-124) and of its callers in `/repo/xrd_simulator/detector.py`. -/

namespace XRD
open Fl
open Classical

/-- Python `c * k` for a character and an integer: empty for negative `k` -/
def repeatChar (c : Char) (k : ℤ) : List Char := List.replicate k.toNat c

/-- `_print_progress` (utils.py:95-124): the printed line.  `pct` is the text of the rounded percentage (utils.py:108, 118);
the line break is added in `PrintCall.run` (Model/Output.lean). -/
noncomputable def printProgress (pct : ℝ → List Char) (fraction : ℝ) (message : List Char) : Except PyErr (List Char) :=
  if ¬ message.length ≤ 55 then .error .assertion
  else
    let k := Detector.pyInt (fraction * 40)
    .ok ("\r".toList ++ message ++ repeatChar ' ' (55 - message.length) ++ " |".toList ++ repeatChar '█' k ++
      repeatChar ' ' (40 - k) ++ "|".toList ++ " ".toList ++ pct fraction ++ "%".toList)

/-- decimal text of a number -/
def natText (n : ℕ) : List Char := Nat.toDigits 10 n

namespace Detector

/-- the progress calls of `_render_gauss_peaks` (detector.py:892-900): fraction and message -/
noncomputable def microProgress (freeGb : ℝ) (peaks : List (List Fl)) : List (ℝ × List Char) :=
  let n := peaks.length
  let b := microBatchSize freeGb
  let batches := (n + b - 1) / b
  ((List.range n).filter fun s => s % b = 0).map fun start : ℕ =>
    (((min (start + b) n : ℕ) : ℝ) / n, "[Micro] Batch ".toList ++ natText (start / b + 1) ++ "/".toList ++ natText batches)

/-- the progress calls of `_render_airy_peaks` (detector.py:1119-1160), for the sizes of the remaining batches -/
noncomputable def nanoProgressLoop (n : ℕ) : ℕ → ℕ → List ℕ → List (ℝ × List Char)
  | _, _, [] => []
  | start, num, s :: ss =>
    (((start + s : ℕ) : ℝ) / n, "[Nano] Batch ".toList ++ natText (num + 1) ++ ", n=".toList ++ natText s) ::
      nanoProgressLoop n (start + s) (num + 1) ss

/-- the same for a rendering of the (sorted) peaks -/
noncomputable def nanoProgress (D : Detector) (available : ℝ) (peaks : List (List Fl)) : List (ℝ × List Char) :=
  nanoProgressLoop peaks.length 0 0 ((D.nanoBatches available peaks).map List.length)

/-- the progress calls of `_render_projected_volumes` (detector.py:1526-1551): frame by frame, peak by peak -/
noncomputable def macroProgress (peaks : List (List Fl)) : List (ℝ × List Char) :=
  let frames := (peaks.map fun r => rcol r 28).dedup
  let done := (frames.map fun f => (peaks.filter fun r => rcol r 28 = f).length).sum
  (List.range done).map fun i : ℕ =>
    (((i + 1 : ℕ) : ℝ) / peaks.length, "[Macro] Peak ".toList ++ natText (i + 1) ++ "/".toList ++ natText peaks.length)

end Detector
end XRD
