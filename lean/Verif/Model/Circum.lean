import Verif.Model.Motion
import Mathlib.LinearAlgebra.Matrix.NonsingularInverse

/-! Model of the deprecated helpers at the end of `/repo/xrd_simulator/utils.py` and of the logging switch. -/

namespace XRD
open V3
open Classical

/-- `_get_circumscribed_sphere_centroid` (utils.py:891-919).  `A` has the rows `2 (p0 - p_i)`, `B` the columns `p0 - p_i`;
`np.linalg.solve` raises `LinAlgError` (a `ValueError`) exactly for a singular matrix and returns the solution otherwise.  One point
alone gives an empty system; no point at all is an `IndexError`. -/
noncomputable def circumCentroid : List V3 → Except PyErr V3
  | [] => .error .indexError
  | p0 :: rest =>
    let A : Fin rest.length → V3 := fun i => (2 : ℝ) • (p0 - rest.get i)
    let b : Fin rest.length → ℝ := fun i => p0.dot p0 - (rest.get i).dot (rest.get i)
    let B : Fin rest.length → V3 := fun i => p0 - rest.get i
    let M : Matrix (Fin rest.length) (Fin rest.length) ℝ := Matrix.of fun i j => (A i).dot (B j)
    if M.det = 0 then .error .valueError
    else
      let x := M⁻¹.mulVec fun i => b i - (A i).dot p0
      .ok (p0 + ∑ j, x j • B j)

/-- `_contained_by_intervals` (utils.py:872-889); the warning is not modelled -/
noncomputable def containedByIntervals (value : ℝ) : List (ℝ × ℝ) → Bool
  | [] => false
  | b :: bs => if value ≥ b.1 ∧ value ≤ b.2 then true else containedByIntervals value bs

/-- the `disabled` flags of the Python loggers, by name -/
abbrev Loggers := String → Bool

/-- the xfab sub-modules (utils.py:286-295) -/
def xfabModules : List String := ["tools", "structure", "atomlib", "detector", "checks", "sg", "sglib", "symmetry"]

/-- `_set_xfab_logging` (utils.py:284-297) -/
def setXfabLogging (disabled : Bool) (l : Loggers) : Loggers :=
  xfabModules.foldl (fun l m => fun name => if name = "xfab." ++ m then disabled else l name) l

/-- a `with _verbose_manager(verbose)` block (utils.py:300-315): the loggers seen by the body, and the loggers afterwards;
`__exit__` runs also when the body raises -/
def verboseBlock (verbose : Bool) (body : Loggers → Loggers) (l : Loggers) : Loggers × Loggers :=
  let inside := if verbose then setXfabLogging false l else l
  let after := body inside
  (inside, if verbose then setXfabLogging true after else after)

end XRD
