import Verif.Base.Vec
import Verif.Base.Fl

/-! Model of `/repo/xrd_simulator/laue.py`. -/

namespace XRD
open V3 M3 Fl
open Classical

/-- `_get_G` (laue.py:14-44) for one element and one plane: `(U @ B) @ hkl`. -/
def getG (U B : M3) (hkl : V3) : V3 := (U * B).mulVec hkl

/-- The two roots `s1, s2` of the half-angle equation for one scattering vector
(laue.py:98-133), NaN handling included. -/
noncomputable def laueRoots (f0 f1 f2 G0 : V3) : Fl × Fl :=
  let rho0 : ℝ := f0.dot G0
  let rho2 : ℝ := f2.dot G0 + nsq G0 / 2
  -- laue.py:100-105
  let denominator : Fl := if rho2 - rho0 = 0 then nan else fin (rho2 - rho0)
  let numerator : Fl := fin (rho2 + rho0)
  -- laue.py:108-116
  let a : Fl := fin (f1.dot G0) / denominator
  let b : Fl := numerator / denominator
  -- laue.py:124-128
  let disc : Fl := a * a - b
  let disc : Fl := if Fl.Lt disc (fin 0) then nan else disc
  -- laue.py:132-133
  (-a + Fl.sqrt disc, -a - Fl.sqrt disc)

/-- `t = 2 * arctan(s) / delta_omega` (laue.py:135, 140). -/
noncomputable def laueTime (s : Fl) (dω : ℝ) : Fl := fin 2 * Fl.arctan s / fin dω

/-- `torch.argwhere(t >= 0 & t <= 1)` and `t[indices]` for one entry (laue.py:137-138, 142-143). -/
noncomputable def keepTime (t : Fl) : Option ℝ :=
  if Fl.Le (fin 0) t ∧ Fl.Le t (fin 1) then
    (match t with | fin r => some r | _ => none)
  else none

/-- One row of the solver output: `(grains, planes, times, G)` (laue.py:155). -/
@[ext] structure LaueSol where
  grain : ℕ
  plane : ℕ
  time : ℝ
  G : V3

/-- All solutions belonging to one branch (`pick` selects `s1` or `s2`), in row-major order of `argwhere`
over the `(grain, plane)` array (laue.py:135-143); `G = G_0[grains, planes]` (laue.py:152-153). -/
noncomputable def laueBranch (pick : Fl × Fl → Fl) (G0 : List (List V3)) (f0 f1 f2 : V3) (dω : ℝ) : List LaueSol :=
  (List.range G0.length).flatMap fun g =>
    (List.range (G0.getD g []).length).filterMap fun p =>
      let v := (G0.getD g []).getD p 0
      (keepTime (laueTime (pick (laueRoots f0 f1 f2 v)) dω)).map fun t => ⟨g, p, t, v⟩

/-- `_find_solutions_to_tangens_half_angle_equation` (laue.py:48-155): first all `s1` solutions, then all `s2`
solutions (the concatenations at laue.py:145-147). -/
noncomputable def laueSolutions (G0 : List (List V3)) (f0 f1 f2 : V3) (dω : ℝ) : List LaueSol :=
  laueBranch Prod.fst G0 f0 f1 f2 dω ++ laueBranch Prod.snd G0 f0 f1 f2 dω

end XRD
