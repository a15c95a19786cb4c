import Verif.Model.Progress

/-! Model of what `render` writes to standard output (`/repo/xrd_simulator/detector.py`, `utils.py:95-124`).  Simplification: the
output of a rendering that completes; warnings go to standard error, see `Model/Warn.lean`. -/

namespace XRD
open Fl
open Classical

/-- a call that writes to standard output: of `_print_progress` (fraction and message), or of `print` -/
inductive PrintCall where
  | progress (event : ℝ × List Char)
  | line (text : List Char)

/-- text written by one call; `_print_progress` breaks the line at the fraction one (utils.py:123-124), `print` always -/
noncomputable def PrintCall.run (pct : ℝ → List Char) : PrintCall → Except PyErr (List Char)
  | .line text => .ok (text ++ "\n".toList)
  | .progress ev => match printProgress pct ev.1 ev.2 with
    | .error e => .error e
    | .ok bar => .ok (bar ++ if ev.1 = 1 then "\n".toList else [])

/-- text written by a sequence of calls -/
noncomputable def printCalls (pct : ℝ → List Char) : List PrintCall → Except PyErr (List Char)
  | [] => .ok []
  | c :: cs => match c.run pct with
    | .error e => .error e
    | .ok s => match printCalls pct cs with
      | .error e => .error e
      | .ok t => .ok (s ++ t)

namespace Detector

/-- the message of `_airy_kernel_batch` when its radius is limited (detector.py:1232-1237); `num` is the text of a number -/
noncomputable def radiusNote (D : Detector) (num : ℝ → List Char) (batch : List (List Fl)) : List PrintCall :=
  let zeros := batch.map D.firstZero
  let r := D.airyRadiusLoop 5 (max (4 * (match zeros with | [] => 0 | z :: zs => maxL z zs)) 8)
  if r > 128 then [.line ("Airy kernel radius should be ".toList ++ num r ++ " but limited to 128".toList)] else []

/-- printing calls of `_render_airy_peaks` (detector.py:998-1166): nothing for an empty table, otherwise the peaks are sorted and
every batch may print a note about its kernels before its progress -/
noncomputable def nanoCalls (D : Detector) (env : RenderEnv) (num : ℝ → List Char) (peaks : List (List Fl)) : List PrintCall :=
  if peaks = [] then []
  else
    let sorted := (env.argsortDesc (peaks.map D.airyMemory)).map fun i => peaks.getD i []
    let available := env.freeGb * 1024 ^ 3
    ((D.nanoBatches available sorted).zip (D.nanoProgress available sorted)).flatMap fun be => D.radiusNote num be.1 ++ [.progress be.2]

/-- printing calls of `_render_gauss_peaks` (detector.py:892-900) -/
noncomputable def microCalls (env : RenderEnv) (peaks : List (List Fl)) : List PrintCall :=
  (microProgress env.freeGb peaks).map .progress

/-- printing calls of `_render_projected_volumes` (detector.py:1526-1551) -/
noncomputable def macroCalls (peaks : List (List Fl)) : List PrintCall := (macroProgress peaks).map .progress

/-- the verbosity of a rendering: the argument, otherwise what the dictionary says, otherwise verbose (detector.py:309-311) -/
def isVerbose (argument inDict : Option Bool) : Bool :=
  match argument with
  | some v => v
  | none => inDict.getD true

/-- text that `render` writes to standard output (detector.py:309-375) -/
noncomputable def renderOutput (D : Detector) (env : RenderEnv) (pct num : ℝ → List Char) (argument inDict : Option Bool) (d : PeaksDict)
    (frames : ℤ) (method : Method) (macroLimit : Option ℝ) (microLimit : ℝ) : Except PyErr (List Char) :=
  if isVerbose argument inDict = false then .ok []
  else
    let note : List PrintCall := if frames < 1 then [.line "[Detector.render] frames_to_render < 1, setting to 1".toList] else []
    let n := if frames < 1 then 1 else frames
    let peaks := (D.peaksIntersection d n).peaks
    match method with
    | .macro => printCalls pct (note ++ macroCalls peaks)
    | .micro => printCalls pct (note ++ microCalls env peaks)
    | .nano => printCalls pct (note ++ D.nanoCalls env num peaks)
    | .auto =>
      let lim := macroLimit.getD ((min D.py D.pz) ^ 3)
      let large := peaks.filter fun r => rcol r 21 ≥ lim
      let small := peaks.filter fun r => rcol r 21 < microLimit
      let medium := peaks.filter fun r => ¬ (rcol r 21 ≥ lim) ∧ ¬ (rcol r 21 < microLimit)
      printCalls pct (note ++ macroCalls large ++ microCalls env medium ++ D.nanoCalls env num small)
    | .other => .error .valueError

end Detector
end XRD
