import Verif.Base.Vec
import Verif.Base.Fl

/-! Model of the strain / lattice-matrix conversions of `/repo/xrd_simulator/utils.py`. -/

namespace XRD
open V3 M3
open Classical

/-- The symmetric matrix whose lower triangle is that of `c` (`torch.linalg.eigvalsh` and `torch.linalg.cholesky` read the
lower triangle only). -/
def symL (c : M3) : M3 :=
  ⟨⟨c.r0.x, c.r1.x, c.r2.x⟩, ⟨c.r1.x, c.r1.y, c.r2.y⟩, ⟨c.r2.x, c.r2.y, c.r2.z⟩⟩

/-- `torch.any(torch.linalg.eigvalsh(C) < 0)` (utils.py:332-333) -/
def hasNegEigenvalue (c : M3) : Prop := ∃ l : ℝ, l < 0 ∧ ∃ v : V3, v ≠ 0 ∧ (symL c).mulVec v = l • v

/-- squared pivots of the Cholesky factorisation of the lower triangle -/
noncomputable def cholP2 (c : M3) : ℝ := c.r1.y - c.r1.x ^ 2 / c.r0.x
noncomputable def cholQ (c : M3) : ℝ := c.r2.y - c.r1.x * c.r2.x / c.r0.x
noncomputable def cholP3 (c : M3) : ℝ := c.r2.z - c.r2.x ^ 2 / c.r0.x - cholQ c ^ 2 / cholP2 c

/-- `torch.linalg.cholesky(C)` (utils.py:340-342), the column-by-column algorithm; a non-positive pivot is a
`LinAlgError`, a subclass of `RuntimeError`. -/
noncomputable def cholesky (c : M3) : Except PyErr M3 :=
  if 0 < c.r0.x then
    if 0 < cholP2 c then
      if 0 < cholP3 c then
        let l11 := Real.sqrt c.r0.x
        let l22 := Real.sqrt (cholP2 c)
        .ok ⟨⟨l11, 0, 0⟩, ⟨c.r1.x / l11, l22, 0⟩, ⟨c.r2.x / l11, cholQ c / l22, Real.sqrt (cholP3 c)⟩⟩
      else .error .runtimeError
    else .error .runtimeError
  else .error .runtimeError

/-- `C = 2 * crystal_strain + eye` (utils.py:330) -/
def strainC (e : M3) : M3 := (2 : ℝ) • e + 1

/-- the B matrix of one feasible strain (utils.py:339-345) -/
noncomputable def bOfStrain (e B0 : M3) : Except PyErr M3 :=
  match cholesky (strainC e) with
  | .error x => .error x
  | .ok L => .ok (L.tr.inv * B0)

/-- `_epsilon_to_b` on one `(3,3)` strain (utils.py:323-345) -/
noncomputable def epsilonToB (e B0 : M3) : Except PyErr M3 :=
  if hasNegEigenvalue (strainC e) then .error .valueError else bOfStrain e B0

/-- apply a fallible function to every entry, failing if any entry fails (batched torch call) -/
def batch {α β : Type} (f : α → Except PyErr β) : List α → Except PyErr (List β)
  | [] => .ok []
  | a :: l => match f a with
    | .error e => .error e
    | .ok b => match batch f l with
      | .error e => .error e
      | .ok bs => .ok (b :: bs)

/-- `_epsilon_to_b` on an `(n,3,3)` array.  The `ValueError` message is built by indexing the *batch* axis with 1 and 2
(utils.py:336 with utils.py:317-320), which is an `IndexError` for fewer than three strains. -/
noncomputable def epsilonToBBatch (es : List M3) (B0 : M3) : Except PyErr (List M3) :=
  if ∃ e ∈ es, hasNegEigenvalue (strainC e) then
    (if es.length < 3 then .error .indexError else .error .valueError)
  else batch (fun e => bOfStrain e B0) es

/-- `_lab_strain_to_B_matrix` (utils.py:244-281), batched: crystal strain `Uᵀ ε U`. -/
noncomputable def labStrainToB (pairs : List (M3 × M3)) (B0 : M3) : Except PyErr (List M3) :=
  epsilonToBBatch (pairs.map fun p => p.2.tr * (p.1 * p.2)) B0

/-- `_strain_as_vector` on a `(3,3)` tensor (utils.py:317-320) -/
def strainAsVector (e : M3) : List ℝ := [e.r0.x, e.r0.y, e.r0.z, e.r1.y, e.r1.z, e.r2.z]

/-- `_strain_as_tensor` (utils.py:921-928): unpacking needs exactly six entries. -/
def strainAsTensor : List ℝ → Except PyErr M3
  | [e11, e12, e13, e22, e23, e33] => .ok ⟨⟨e11, e12, e13⟩, ⟨e12, e22, e23⟩, ⟨e13, e23, e33⟩⟩
  | _ => .error .valueError

/-- `_b_to_epsilon` (utils.py:348-358) for invertible `B` -/
noncomputable def bToEpsilon (B B0 : M3) : List ℝ :=
  let F := B0 * B.inv
  strainAsVector ((1 / 2 : ℝ) • (F.tr * F - 1))

end XRD
