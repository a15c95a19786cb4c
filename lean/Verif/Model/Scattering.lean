import Verif.Base.Vec
import Verif.Base.Fl
import Mathlib.Analysis.SpecialFunctions.Pow.Real

/-! Model of `/repo/xrd_simulator/scattering_factors.py` (one reflection at a time). -/

namespace XRD
open V3 Fl
open Classical

/-- `torch.rad2deg` -/
noncomputable def rad2deg : Fl → Fl
  | fin a => fin (a * (180 / Real.pi)) | pinf => pinf | ninf => ninf | nan => nan

/-- `_lorentz` for one outgoing wave vector (scattering_factors.py:46-65). -/
noncomputable def lorentz (kin kout axis : V3) : Fl :=
  let kkp : Fl := fin (kin.dot kout) / fin (kin.norm ^ 2)
  let theta : Fl := Fl.arccos kkp / fin 2
  -- k_out - k_in * kkp, component-wise (line 52)
  let ox : Fl := fin kout.x - fin kin.x * kkp
  let oy : Fl := fin kout.y - fin kin.y * kkp
  let oz : Fl := fin kout.z - fin kin.z * kkp
  let onorm : Fl := Fl.sqrt (ox * ox + oy * oy + oz * oz)
  let eta : Fl := Fl.arccos ((fin axis.x * ox + fin axis.y * oy + fin axis.z * oz) / onorm)
  let tol : ℝ := 1 / 2
  if Fl.Lt (Fl.abs (rad2deg eta)) (fin tol) ∨ Fl.Lt (fin (180 - tol)) (Fl.abs (rad2deg eta))
      ∨ Fl.Lt (rad2deg theta) (fin tol)
  then pinf
  else fin 1 / (Fl.sin (fin 2 * theta) * Fl.abs (Fl.sin eta))

/-- `_polarization` for one outgoing wave vector (scattering_factors.py:102-107). -/
noncomputable def polarization (kout pol : V3) : Fl :=
  let n : Fl := fin kout.norm
  let d : Fl := fin kout.x / n * fin pol.x + fin kout.y / n * fin pol.y + fin kout.z / n * fin pol.z
  fin 1 - d * d

/-- `_scherrer` (scattering_factors.py:110-135) with the default `K = 0.9`. -/
noncomputable def scherrer (volume twoTheta wavelength : ℝ) (K : ℝ := 9 / 10) : Fl :=
  let size : ℝ := 2 * (3 * volume / (4 * Real.pi)) ^ ((1 : ℝ) / 3) * 10000
  fin (K * wavelength) / fin (size * Real.cos (twoTheta / 2))

/-- The `2theta` column (polycrystal.py:368-370): `arccos` of the product of the normalised wave vectors. -/
noncomputable def twoTheta (kin kout : V3) : Fl :=
  let ni : Fl := fin kin.norm
  let no : Fl := fin kout.norm
  Fl.arccos ((fin kin.x / ni) * (fin kout.x / no) + (fin kin.y / ni) * (fin kout.y / no)
    + (fin kin.z / ni) * (fin kout.z / no))

end XRD
