import Verif.Base.Vec
import Verif.Base.Fl

/-!
Specification side: short textbook definitions, written from the English properties only.
Nothing in this file refers to the model of the code.
-/

namespace XRD.Spec
open XRD V3

/-- Textbook (vector form) Rodrigues rotation of `v` by `θ` about the axis direction `u`:
`v cos θ + (u × v) sin θ + u (u·v)(1 - cos θ)`. -/
noncomputable def rotate (u : V3) (θ : ℝ) (v : V3) : V3 :=
  Real.cos θ • v + Real.sin θ • cross u v + ((1 - Real.cos θ) * dot u v) • u

/-- Textbook rigid body motion: rotate by `t*angle` about the axis through `o`, then translate by `t*T`. -/
noncomputable def move (u : V3) (angle : ℝ) (T o : V3) (t : ℝ) (p : V3) : V3 :=
  o + rotate u (t * angle) (p - o) + t • T

/-- Elastic scattering (Laue condition) of incident wave vector `k` by the diffraction vector `G`. -/
def Elastic (k G : V3) : Prop := norm (k + G) = norm k

/-- Orientation preserving isometry of space. -/
def RigidMap (f : V3 → V3) : Prop :=
  (∀ p q, V3.dist (f p) (f q) = V3.dist p q) ∧
  (∀ p a b c, dot (cross (f a - f p) (f b - f p)) (f c - f p) = dot (cross (a - p) (b - p)) (c - p))

end XRD.Spec

namespace XRD.Spec
/-- A row of a table with named columns holds value `v` in the column called `name`. -/
def Has (columns : List String) (row : List Fl) (name : String) (v : Fl) : Prop :=
  ∃ i : ℕ, columns[i]? = some name ∧ row[i]? = some v
/-- Three named columns hold the (finite) vector `v`. -/
def HasV (columns : List String) (row : List Fl) (nx ny nz : String) (v : V3) : Prop :=
  Has columns row nx (.fin v.x) ∧ Has columns row ny (.fin v.y) ∧ Has columns row nz (.fin v.z)
end XRD.Spec

namespace XRD.Spec
open XRD V3
/-- Angle in `[0, π]` between two nonzero vectors. -/
noncomputable def angle (u v : V3) : ℝ := Real.arccos (dot u v / (norm u * norm v))
/-- Component of `v` orthogonal to `u`. -/
noncomputable def perp (u v : V3) : V3 := v - (dot u v / norm u ^ 2) • u
/-- Degrees to radians. -/
noncomputable def deg (x : ℝ) : ℝ := x * Real.pi / 180
end XRD.Spec

namespace XRD.Spec
open XRD V3
/-- The half-line from `src` along `ray` crosses (transversally) the parallelogram with corner `c0` and sides `c2 - c0`,
`c1 - c0`; `u`, `v` are the fractions of the two sides. -/
def RayHitsAt (c0 c1 c2 src ray : V3) (u v : ℝ) : Prop :=
  dot ray (cross (c2 - c0) (c1 - c0)) ≠ 0 ∧ 0 ≤ u ∧ u ≤ 1 ∧ 0 ≤ v ∧ v ≤ 1 ∧
  ∃ s : ℝ, 0 ≤ s ∧ src + s • ray = c0 + u • (c2 - c0) + v • (c1 - c0)
end XRD.Spec
