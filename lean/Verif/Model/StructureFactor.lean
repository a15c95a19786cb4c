import Verif.Model.Mesh

/-! Model of `/repo/xrd_simulator/structure_factors.py`.

Parameters of the model: the atoms, dispersion corrections and symmetry operations as delivered by xfab and the CIF file, the
form factor table of xfab, and `xfab.tools.cell_invert`.  Arithmetic is exact. -/

namespace XRD
open V3 M3
open Classical

/-- A symmetry operation: `mysg.rot[s]`, `mysg.trans[s]` (structure_factors.py:165-169). -/
structure SymOp where
  rot : M3
  trans : V3

instance : Inhabited SymOp := ⟨⟨0, 0⟩⟩

/-- Displacement parameters: `adp_type` "Uiso", "Uani" or anything else, with `adp` (structure_factors.py:213-219). -/
inductive Adp where
  | none
  | uiso (u : ℝ)
  | uani (u11 u22 u33 u23 u13 u12 : ℝ)

/-- One entry of `atomlist.atom` (structure_factors.py:159). -/
structure Atom where
  atomtype : String
  pos : V3
  occ : ℝ
  symmulti : ℝ
  adp : Adp

instance : Inhabited Atom := ⟨⟨"", 0, 0, 0, .none⟩⟩

/-- The nine coefficients of `atomlib.formfactor[atomtype]` (structure_factors.py:83-89). -/
structure FormCoeffs where
  a : Q4 ℝ
  b : Q4 ℝ
  c : ℝ

/-- What xfab provides: the form factor table, the dispersion dictionary of the CIF and the reciprocal lengths. -/
structure CrystalLib where
  formfactor : String → Option FormCoeffs
  dispersion : String → Option (ℝ × ℝ)
  cellStar : List ℝ → V3

/-- `_sintl_batch` for one reflection (structure_factors.py:42-63).  For an impossible cell, where the code yields NaN, the
model takes the square root of a negative number to be 0. -/
noncomputable def sintl (cell : List ℝ) (hkl : V3) : ℝ :=
  let a := cell.getD 0 0
  let b := cell.getD 1 0
  let c := cell.getD 2 0
  let calp := Real.cos (cell.getD 3 0 * Real.pi / 180)
  let cbet := Real.cos (cell.getD 4 0 * Real.pi / 180)
  let cgam := Real.cos (cell.getD 5 0 * Real.pi / 180)
  let h := hkl.x
  let k := hkl.y
  let l := hkl.z
  let part1 := (h * h / a ^ 2) * (1 - calp ^ 2) + (k * k / b ^ 2) * (1 - cbet ^ 2) + (l * l / c ^ 2) * (1 - cgam ^ 2)
    + 2 * h * k * (calp * cbet - cgam) / (a * b) + 2 * h * l * (calp * cgam - cbet) / (a * c)
    + 2 * k * l * (cbet * cgam - calp) / (b * c)
  let part2 := 1 - (calp ^ 2 + cbet ^ 2 + cgam ^ 2) + 2 * calp * cbet * cgam
  Real.sqrt part1 / (2 * Real.sqrt part2)

/-- `_form_factors_batch` for one atom and one reflection (structure_factors.py:81-95) -/
noncomputable def formFactor (f : FormCoeffs) (stl : ℝ) : ℝ :=
  let stl2 := stl * stl
  f.a.a * Real.exp (-f.b.a * stl2) + f.a.b * Real.exp (-f.b.b * stl2) + f.a.c * Real.exp (-f.b.c * stl2)
    + f.a.d * Real.exp (-f.b.d * stl2) + f.c

/-- `_uij_to_betaij` (structure_factors.py:98-110); `cs` is the vector of the first three entries of `cell_invert`. -/
noncomputable def uijToBeta (cs : V3) (u11 u22 u33 u23 u13 u12 : ℝ) : M3 :=
  let w := 2 * Real.pi ^ 2
  ⟨⟨w * cs.x * cs.x * u11, w * cs.x * cs.y * u12, w * cs.x * cs.z * u13⟩,
   ⟨w * cs.y * cs.x * u12, w * cs.y * cs.y * u22, w * cs.y * cs.z * u23⟩,
   ⟨w * cs.z * cs.x * u13, w * cs.z * cs.y * u23, w * cs.z * cs.z * u33⟩⟩

/-- is the atom anisotropic (`uani_atoms`, structure_factors.py:213-219) -/
def Atom.isUani (a : Atom) : Bool := match a.adp with
  | .uani .. => true
  | _ => false

/-- The tensors of `compute_structure_factors_batch` after its first half (structure_factors.py:155-246), as functions of the
atom, symmetry and reflection index. -/
structure SfTensors where
  nAtoms : ℕ
  nSym : ℕ
  nHkl : ℕ
  hkl : ℕ → V3
  rot : ℕ → M3
  sitePop : ℕ → ℝ
  fp : ℕ → ℝ
  fpp : ℕ → ℝ
  ff : ℕ → ℕ → ℝ
  expij : ℕ → ℕ → ℝ
  phase : ℕ → ℕ → ℕ → ℝ
  uani : List ℕ
  beta : ℕ → M3

/-- structure_factors.py:155-246 -/
noncomputable def sfTensors (lib : CrystalLib) (ops : List SymOp) (atoms : List Atom) (cell : List ℝ) (hkls : List V3) : SfTensors :=
  let atom := fun i => atoms.getD i default
  let stl := fun h => sintl cell (hkls.getD h 0)
  { nAtoms := atoms.length
    nSym := ops.length
    nHkl := hkls.length
    hkl := fun h => hkls.getD h 0
    rot := fun s => (ops.getD s default).rot
    sitePop := fun i => (atom i).occ * (atom i).symmulti / ops.length
    fp := fun i => match lib.dispersion (atom i).atomtype with
      | some d => d.1
      | none => 0
    fpp := fun i => match lib.dispersion (atom i).atomtype with
      | some d => d.2
      | none => 0
    ff := fun i h => match lib.formfactor (atom i).atomtype with
      | some c => formFactor c (stl h)
      | none => 0
    expij := fun i h => match (atom i).adp with
      | .uiso u => Real.exp (-8 * Real.pi ^ 2 * u * (stl h * stl h))
      | _ => 1
    phase := fun i s h =>
      2 * Real.pi * dot (hkls.getD h 0) ((ops.getD s default).rot.mulVec (atom i).pos + (ops.getD s default).trans)
    uani := (List.range atoms.length).filter fun i => (atom i).isUani
    beta := fun i => match (atom i).adp with
      | .uani u11 u22 u33 u23 u13 u12 => uijToBeta (lib.cellStar cell) u11 u22 u33 u23 u13 u12
      | _ => 0 }

/-- the contribution of all atoms that are not anisotropic to reflection `h` (structure_factors.py:251-273) -/
noncomputable def nonUaniPart (t : SfTensors) (h : ℕ) : ℝ × ℝ :=
  let mask := (List.range t.nAtoms).filter fun i => !t.uani.contains i
  let cosSum := fun i => ((List.range t.nSym).map fun s => Real.cos (t.phase i s h)).sum
  let sinSum := fun i => ((List.range t.nSym).map fun s => Real.sin (t.phase i s h)).sum
  ((mask.map fun i => t.sitePop i * t.expij i h * (cosSum i * (t.ff i h + t.fp i) - sinSum i * t.fpp i)).sum,
   (mask.map fun i => t.sitePop i * t.expij i h * (sinSum i * (t.ff i h + t.fp i) + cosSum i * t.fpp i)).sum)

/-- the contribution of one anisotropic atom to reflection `h` (structure_factors.py:276-302) -/
noncomputable def uaniPart (t : SfTensors) (i h : ℕ) : ℝ × ℝ :=
  let betaRot := fun s => t.rot s * t.beta i * (t.rot s).tr
  let quad := fun s => dot (vecMul (t.hkl h) (betaRot s)) (t.hkl h)
  let e := fun s => Real.exp (-quad s)
  (t.sitePop i * ((List.range t.nSym).map fun s =>
      e s * (Real.cos (t.phase i s h) * (t.ff i h + t.fp i) - Real.sin (t.phase i s h) * t.fpp i)).sum,
   t.sitePop i * ((List.range t.nSym).map fun s =>
      e s * (Real.sin (t.phase i s h) * (t.ff i h + t.fp i) + Real.cos (t.phase i s h) * t.fpp i)).sum)

/-- `compute_structure_factors_batch` (structure_factors.py:117-305): an atom type without form factor is a `KeyError`
(line 84), and without any atom `coeffs[:, :4]` of line 88 is an `IndexError`. -/
noncomputable def structureFactors (lib : CrystalLib) (ops : List SymOp) (atoms : List Atom) (cell : List ℝ) (hkls : List V3) :
    Except PyErr (List (ℝ × ℝ)) :=
  if ∃ a ∈ atoms, lib.formfactor a.atomtype = none then .error .keyError
  else if atoms.length = 0 then .error .indexError
  else
    let t := sfTensors lib ops atoms cell hkls
    .ok ((List.range t.nHkl).map fun h =>
      t.uani.foldl (fun acc i => (acc.1 + (uaniPart t i h).1, acc.2 + (uaniPart t i h).2)) (nonUaniPart t h))

end XRD
