import Verif.Model.Detector

/-! Model of the warning of `/repo/xrd_simulator/detector.py:peaks_detector_intersection` about discarded hits. -/

namespace XRD
open V3 M3 Fl
open Classical

/-- The three reasons the message can name (detector.py:731-739): "infinite Lorentz factor", "non-positive intensity",
"NaN intensity". -/
inductive SkipReason where | infiniteLorentz | nonPositive | nan
  deriving DecidableEq

/-- The content of the message (detector.py:742-747): the number of skipped peaks and, in order, the numbers and reasons. -/
structure SkipWarning where
  total : ℕ
  reasons : List (ℕ × SkipReason)

/-- `torch.isinf` -/
def Fl.isInf (v : Fl) : Prop := v = pinf ∨ v = ninf

/-- `peaks[:, 29]` before the last filter (detector.py:673-711): the same statements as in `Detector.peaksIntersection`. -/
noncomputable def Detector.hitIntensities (D : Detector) (d : PeaksDict) (n : ℤ) : List Fl :=
  let rows := d.peaks.map fun row => row ++ D.rowIntersect row
  let rows := rows.filter fun row => D.contains (row.getD 25 nan) (row.getD 26 nan)
  let rows := rows.map fun row => row ++ [rowFrame n row]
  let rows := rows.map fun row => row ++ [D.rowIntensity row]
  rows.map fun row => row.getD 29 nan

/-- one entry of `reason_parts`, present if its count is positive (detector.py:732-739) -/
def skipPart (k : ℕ) (r : SkipReason) : List (ℕ × SkipReason) := if k > 0 then [(k, r)] else []

/-- the warning issued by `peaks_detector_intersection` (detector.py:717-747); `none`: no warning.  Python's own filter of
repeated warnings is not modelled. -/
noncomputable def Detector.skipWarning (D : Detector) (d : PeaksDict) (n : ℤ) (verbose : Bool) : Option SkipWarning :=
  let col := D.hitIntensities d n
  let nInvalid := (col.filter fun v => ¬ (Fl.IsFinite v ∧ Fl.Lt (fin 0) v)).length
  if nInvalid > 0 ∧ verbose = true then
    let nInfinite := (col.filter fun v => v.isInf).length
    let nNonPositive := (col.filter fun v => Fl.Le v (fin 0) ∧ ¬ v.isInf).length
    let nNan := (col.filter fun v => v = nan).length
    some ⟨nInvalid, skipPart nInfinite .infiniteLorentz ++ skipPart nNonPositive .nonPositive ++ skipPart nNan .nan⟩
  else none

end XRD
