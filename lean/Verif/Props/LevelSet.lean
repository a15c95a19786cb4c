import Verif.Model.LevelSet
import Verif.Props.Mesh
import Mathlib.Analysis.Convex.Hull
import Mathlib.Topology.Order.IntermediateValue
import Mathlib.Topology.Algebra.Order.Field

/-! Property C86: meshes generated from a level set. -/

namespace XRD.Spec
open XRD V3

/-- indices of a point of the sampling grid -/
abbrev Idx := ℕ × ℕ × ℕ
def InGrid (n : ℕ) (a : Idx) : Prop := a.1 < n ∧ a.2.1 < n ∧ a.2.2 < n
/-- `b` is the next grid point after `a` in one of the three directions -/
def NextTo (a b : Idx) : Prop := b = (a.1 + 1, a.2.1, a.2.2) ∨ b = (a.1, a.2.1 + 1, a.2.2) ∨ b = (a.1, a.2.1, a.2.2 + 1)
/-- `a` is one of the eight corners of the grid cell that starts at `c` -/
def Corner (c a : Idx) : Prop :=
  (a.1 = c.1 ∨ a.1 = c.1 + 1) ∧ (a.2.1 = c.2.1 ∨ a.2.1 = c.2.1 + 1) ∧ (a.2.2 = c.2.2 ∨ a.2.2 = c.2.2 + 1)
/-- position of a grid point, for spacing `h` -/
def node (h : ℝ) (a : Idx) : V3 := ⟨a.1 * h, a.2.1 * h, a.2.2 * h⟩
/-- `p` is in the closed cell that starts at `c` -/
def InCell (h : ℝ) (c : Idx) (p : V3) : Prop :=
  (c.1 * h ≤ p.x ∧ p.x ≤ (c.1 + 1) * h) ∧ (c.2.1 * h ≤ p.y ∧ p.y ≤ (c.2.1 + 1) * h) ∧ (c.2.2 * h ≤ p.z ∧ p.z ≤ (c.2.2 + 1) * h)
/-- the value at a grid point is positive -/
def Positive (vol : Volume) (a : Idx) : Prop := 0 < vol a.1 a.2.1 a.2.2
/-- a cell of the grid with a positive corner and one that is not -/
def Crossed (n : ℕ) (vol : Volume) (c : Idx) : Prop :=
  InGrid n (c.1 + 1, c.2.1 + 1, c.2.2 + 1) ∧ (∃ a, Corner c a ∧ Positive vol a) ∧ ∃ b, Corner c b ∧ ¬ Positive vol b
/-- the three indices of a triangle -/
def tri (t : ℕ × ℕ × ℕ) : List ℕ := [t.1, t.2.1, t.2.2]

/-- What marching cubes does: every triangle lies in one crossed cell, every vertex is used, every grid edge between a positive point and one
that is not carries a vertex; values all positive or all not are refused, others are not. -/
structure IsMarchingCubes (mc : MarchingCubes) : Prop where
  cells : ∀ n vol h verts faces, 0 < h → mc n vol ⟨h, h, h⟩ = .ok (verts, faces) →
    ∀ t ∈ faces, ∃ c, Crossed n vol c ∧ ∀ m ∈ tri t, ∃ v, verts[m]? = some v ∧ InCell h c v
  used : ∀ n vol h verts faces, 0 < h → mc n vol ⟨h, h, h⟩ = .ok (verts, faces) → ∀ m < verts.length, ∃ t ∈ faces, m ∈ tri t
  edges : ∀ n vol h verts faces, 0 < h → mc n vol ⟨h, h, h⟩ = .ok (verts, faces) → ∀ a b, InGrid n a → InGrid n b → (NextTo a b ∨ NextTo b a) →
    Positive vol a → ¬ Positive vol b → ∃ v ∈ verts, ∃ s : ℝ, 0 ≤ s ∧ s ≤ 1 ∧ v = node h a + s • (node h b - node h a)
  refuses : ∀ n vol h, 0 < h → ((∀ a, InGrid n a → Positive vol a) ∨ ∀ a, InGrid n a → ¬ Positive vol a) →
    mc n vol ⟨h, h, h⟩ = .error .valueError ∨ mc n vol ⟨h, h, h⟩ = .error .runtimeError
  accepts : ∀ n vol h, 2 ≤ n → 0 < h → (∃ a, InGrid n a ∧ Positive vol a) → (∃ b, InGrid n b ∧ ¬ Positive vol b) →
    ∃ verts faces, mc n vol ⟨h, h, h⟩ = .ok (verts, faces) ∧ verts ≠ [] ∧ faces ≠ []

/-- a point of the triangle `a b c` -/
def InTriangle (a b c p : V3) : Prop := ∃ s t u : ℝ, 0 ≤ s ∧ 0 ≤ t ∧ 0 ≤ u ∧ s + t + u = 1 ∧ p = s • a + t • b + u • c
/-- a point of the triangle with these three indices -/
def InFace (pts : List V3) (t : ℕ × ℕ × ℕ) (p : V3) : Prop :=
  ∃ a b c, pts[t.1]? = some a ∧ pts[t.2.1]? = some b ∧ pts[t.2.2]? = some c ∧ InTriangle a b c p
/-- the four faces of a tetrahedron -/
def fourFaces (e : Q4 ℕ) : List (ℕ × ℕ × ℕ) := [(e.a, e.b, e.c), (e.a, e.b, e.d), (e.a, e.c, e.d), (e.b, e.c, e.d)]
/-- a point of the outer surface of a tetrahedral mesh: on a face of an element that no other element has -/
def OnOuterSurface (coord : List V3) (enod : List (Q4 ℕ)) (p : V3) : Prop :=
  ∃ (i : ℕ) (e : Q4 ℕ), enod[i]? = some e ∧ ∃ t ∈ fourFaces e,
    (∀ (j : ℕ) (e' : Q4 ℕ), enod[j]? = some e' → (∀ m ∈ tri t, m ∈ e'.toList) → j = i) ∧ InFace coord t p
/-- six times the volume of a tetrahedron -/
def sixVolume (t : Q4 V3) : ℝ := |dot (cross (t.b - t.a) (t.c - t.a)) (t.d - t.a)|

/-- What the tetrahedral mesher does: its nodes are in the convex hull of the given points, the given points are among them, its outer surface
is in the given one, and its elements are no larger than asked. -/
structure IsTetBuild (build : TetBuild) : Prop where
  hull : ∀ verts faces V pts els, build verts faces V = .ok (pts, els) → ∀ p ∈ pts, p ∈ convexHull ℝ {v | v ∈ verts}
  kept : ∀ verts faces V pts els, build verts faces V = .ok (pts, els) → ∀ v ∈ verts, v ∈ pts
  outer : ∀ verts faces V pts els, build verts faces V = .ok (pts, els) → ∀ p, OnOuterSurface pts els p → ∃ t ∈ faces, InFace verts t p
  volume : ∀ verts faces V pts els, build verts faces V = .ok (pts, els) → ∀ t ∈ elements pts els, sixVolume t / 6 ≤ V

/-- a function of space that is continuous along every straight line -/
def ContinuousOnLines (f : V3 → ℝ) : Prop := ∀ p q : V3, Continuous fun t : ℝ => f (p + t • (q - p))
/-- `p` is in the cube of half side `R` around the origin -/
def InCube (R : ℝ) (p : V3) : Prop := |p.x| ≤ R ∧ |p.y| ≤ R ∧ |p.z| ≤ R
/-- number of samples per axis: `4R/r` rounded down, but at least 20 -/
noncomputable def samples (R r : ℝ) : ℕ := max ⌊4 * R / r⌋₊ 20
/-- distance of neighbouring samples -/
noncomputable def spacing (R r : ℝ) : ℝ := 2 * R / ((samples R r : ℝ) - 1)
/-- a sample point -/
noncomputable def samplePoint (R r : ℝ) (a : Idx) : V3 := ⟨-R + a.1 * spacing R r, -R + a.2.1 * spacing R r, -R + a.2.2 * spacing R r⟩
end XRD.Spec

namespace XRD
open V3 Spec
open scoped Classical

theorem gridCount_eq {R r : ℝ} (hR : 0 < R) (hr : 0 < r) : gridCount R r = samples R r := by
  have h0 : 2 * R / (r * (1 / 2)) = 4 * R / r := by field_simp; ring
  have hp : 0 ≤ 4 * R / r := by positivity
  unfold gridCount samples Detector.pyInt
  rw [h0, if_pos hp]
  have : ((⌊4 * R / r⌋₊ : ℕ) : ℤ) = ⌊4 * R / r⌋ := Int.natCast_floor_eq_floor hp
  omega

theorem twenty_le_samples (R r : ℝ) : 20 ≤ samples R r := le_max_right _ _

theorem samples_gt {R r : ℝ} (hR : 0 < R) (hr : 0 < r) : (19 : ℝ) ≤ (samples R r : ℝ) - 1 := by
  have h := twenty_le_samples R r
  have : (20 : ℝ) ≤ (samples R r : ℝ) := by exact_mod_cast h
  linarith

theorem spacing_pos {R r : ℝ} (hR : 0 < R) (hr : 0 < r) : 0 < spacing R r := by
  have := samples_gt hR hr
  unfold spacing
  apply div_pos (by linarith) (by linarith)

/-- the samples are closer than 5/9 of the requested element radius -/
theorem spacing_le {R r : ℝ} (hR : 0 < R) (hr : 0 < r) : spacing R r ≤ 5 / 9 * r := by
  have h1 := samples_gt hR hr
  have hfl : 4 * R / r < (⌊4 * R / r⌋₊ : ℝ) + 1 := Nat.lt_floor_add_one _
  have hge : ((⌊4 * R / r⌋₊ : ℕ) : ℝ) ≤ (samples R r : ℝ) := by exact_mod_cast le_max_left _ _
  unfold spacing
  rw [div_le_iff₀ (by linarith)]
  have h4 : 4 * R < ((samples R r : ℝ) + 1) * r := by
    have : 4 * R / r < (samples R r : ℝ) + 1 := by linarith
    rwa [div_lt_iff₀ hr] at this
  nlinarith

theorem surfaceOf_ok {mc : MarchingCubes} {f : V3 → ℝ} {R : ℝ} {n : ℕ} {verts : List V3} {faces : List (ℕ × ℕ × ℕ)}
    (h : surfaceOf mc f R n = .ok (verts, faces)) :
    ∃ vs, mc n (sampleVolume f R n) ⟨2 * R / ((n : ℝ) - 1), 2 * R / ((n : ℝ) - 1), 2 * R / ((n : ℝ) - 1)⟩ = .ok (vs, faces) ∧
      verts = vs.map (· + ⟨-R, -R, -R⟩) := by
  unfold surfaceOf at h
  have e1 : gridAxis R n 1 - gridAxis R n 0 = 2 * R / ((n : ℝ) - 1) := by unfold gridAxis; push_cast; ring
  have e0 : gridPoint R n 0 0 0 = ⟨-R, -R, -R⟩ := by unfold gridPoint gridAxis; ext <;> simp
  rw [e1, e0] at h
  dsimp only at h
  split at h
  · cases h
  · cases h
  · cases h
  · rename_i vs fs hm
    split_ifs at h
    have := Except.ok.inj h
    simp only [Prod.mk.injEq] at this
    obtain ⟨rfl, rfl⟩ := this
    exact ⟨vs, hm, rfl⟩

/-- what a successful call has done -/
theorem levelset_ok {mc : MarchingCubes} {build : TetBuild} {f : V3 → ℝ} {R r : ℝ} (hR : 0 < R) (hr : 0 < r) {mesh : TetraMesh}
    (h : meshFromLevelset mc build f R r = .ok mesh) :
    ∃ vs faces, mc (samples R r) (sampleVolume f R (samples R r)) ⟨spacing R r, spacing R r, spacing R r⟩ = .ok (vs, faces) ∧
      build (vs.map (· + ⟨-R, -R, -R⟩)) faces (r ^ 3 / 6) = .ok (mesh.coord, mesh.enod) := by
  unfold meshFromLevelset at h
  rw [if_neg hr.ne', gridCount_eq hR hr] at h
  split at h
  · cases h
  · rename_i verts faces hs
    obtain ⟨vs, h1, rfl⟩ := surfaceOf_ok hs
    split at h
    · cases h
    · rename_i pts els hb
      split_ifs at h
      unfold TetraMesh.new at h
      split_ifs at h
      obtain rfl := Except.ok.inj h
      exact ⟨vs, faces, h1, hb⟩

theorem sampleVolume_eq (f : V3 → ℝ) (R r : ℝ) (a : Idx) :
    sampleVolume f R (samples R r) a.1 a.2.1 a.2.2 = f (samplePoint R r a) := rfl

theorem cell_in_cube {R r : ℝ} (hR : 0 < R) (hr : 0 < r) {c : Idx} (hc : InGrid (samples R r) (c.1 + 1, c.2.1 + 1, c.2.2 + 1)) {v : V3}
    (hv : InCell (spacing R r) c v) : InCube R (v + ⟨-R, -R, -R⟩) := by
  have hs := spacing_pos hR hr
  have h1 := samples_gt hR hr
  have hsp : spacing R r * ((samples R r : ℝ) - 1) = 2 * R := by
    unfold spacing; field_simp
  obtain ⟨⟨x1, x2⟩, ⟨y1, y2⟩, z1, z2⟩ := hv
  obtain ⟨c1, c2, c3⟩ := hc
  have key : ∀ m : ℕ, m + 1 < samples R r → ((m : ℝ) + 1) * spacing R r ≤ 2 * R := by
    intro m hm
    have : ((m + 1 + 1 : ℕ) : ℝ) ≤ (samples R r : ℝ) := by exact_mod_cast hm
    push_cast at this
    nlinarith
  have pos : ∀ m : ℕ, 0 ≤ (m : ℝ) * spacing R r := fun m => by positivity
  have k1 := key _ c1
  have k2 := key _ c2
  have k3 := key _ c3
  have p1 := pos c.1
  have p2 := pos c.2.1
  have p3 := pos c.2.2
  refine ⟨?_, ?_, ?_⟩ <;> rw [abs_le] <;> simp only [add_x, add_y, add_z] <;> constructor <;> linarith

/-- a function that is continuous on lines has a zero between two points where it has different signs -/
theorem zero_between {f : V3 → ℝ} (hf : ContinuousOnLines f) {p q : V3} (hp : 0 < f p) (hq : f q ≤ 0) :
    ∃ t : ℝ, 0 ≤ t ∧ t ≤ 1 ∧ f (p + t • (q - p)) = 0 := by
  have e0 : f (p + (0 : ℝ) • (q - p)) = f p := by congr 1; ext <;> simp
  have e1 : f (p + (1 : ℝ) • (q - p)) = f q := by congr 1; ext <;> simp
  have := intermediate_value_Icc' (a := (0 : ℝ)) (b := 1) zero_le_one (hf p q).continuousOn
  have hm : (0 : ℝ) ∈ Set.Icc (f (p + (1 : ℝ) • (q - p))) (f (p + (0 : ℝ) • (q - p))) := by rw [e0, e1]; exact ⟨hq, hp.le⟩
  obtain ⟨t, ht, h⟩ := this hm
  exact ⟨t, ht.1, ht.2, h⟩

theorem inCell_corner {h : ℝ} (hh : 0 < h) {c a : Idx} (ha : Corner c a) : InCell h c (node h a) := by
  have key : ∀ m k : ℕ, (k = m ∨ k = m + 1) → (m : ℝ) * h ≤ k * h ∧ (k : ℝ) * h ≤ (m + 1) * h := by
    rintro m k (rfl | rfl)
    · exact ⟨le_refl _, by nlinarith⟩
    · push_cast; exact ⟨by nlinarith, le_refl _⟩
  exact ⟨key _ _ ha.1, key _ _ ha.2.1, key _ _ ha.2.2⟩

theorem comb_le {a b s t lo hi : ℝ} (hs : 0 ≤ s) (ht : 0 ≤ t) (h : s + t = 1) (ha : lo ≤ a ∧ a ≤ hi) (hb : lo ≤ b ∧ b ≤ hi) :
    lo ≤ s * a + t * b ∧ s * a + t * b ≤ hi := by
  have e1 : lo = s * lo + t * lo := by rw [← add_mul, h, one_mul]
  have e2 : hi = s * hi + t * hi := by rw [← add_mul, h, one_mul]
  constructor
  · rw [e1]; nlinarith [mul_le_mul_of_nonneg_left ha.1 hs, mul_le_mul_of_nonneg_left hb.1 ht]
  · rw [e2]; nlinarith [mul_le_mul_of_nonneg_left ha.2 hs, mul_le_mul_of_nonneg_left hb.2 ht]

theorem inCell_segment {h : ℝ} {c : Idx} {p q : V3} (hp : InCell h c p) (hq : InCell h c q) {t : ℝ} (h0 : 0 ≤ t) (h1 : t ≤ 1) :
    InCell h c (p + t • (q - p)) := by
  have e : ∀ a b : ℝ, a + t * (b - a) = (1 - t) * a + t * b := fun a b => by ring
  refine ⟨?_, ?_, ?_⟩
  · have := comb_le (sub_nonneg.mpr h1) h0 (by ring) hp.1 hq.1
    simpa [e] using this
  · have := comb_le (sub_nonneg.mpr h1) h0 (by ring) hp.2.1 hq.2.1
    simpa [e] using this
  · have := comb_le (sub_nonneg.mpr h1) h0 (by ring) hp.2.2 hq.2.2
    simpa [e] using this

theorem comb3_le {a b c s t u lo hi : ℝ} (hs : 0 ≤ s) (ht : 0 ≤ t) (hu : 0 ≤ u) (h : s + t + u = 1) (ha : lo ≤ a ∧ a ≤ hi)
    (hb : lo ≤ b ∧ b ≤ hi) (hc : lo ≤ c ∧ c ≤ hi) : lo ≤ s * a + t * b + u * c ∧ s * a + t * b + u * c ≤ hi := by
  have e1 : lo = s * lo + t * lo + u * lo := by rw [← add_mul, ← add_mul, h, one_mul]
  have e2 : hi = s * hi + t * hi + u * hi := by rw [← add_mul, ← add_mul, h, one_mul]
  constructor
  · rw [e1]; nlinarith [mul_le_mul_of_nonneg_left ha.1 hs, mul_le_mul_of_nonneg_left hb.1 ht, mul_le_mul_of_nonneg_left hc.1 hu]
  · rw [e2]; nlinarith [mul_le_mul_of_nonneg_left ha.2 hs, mul_le_mul_of_nonneg_left hb.2 ht, mul_le_mul_of_nonneg_left hc.2 hu]

/-- two points of one cell -/
theorem inCell_dist {h : ℝ} {c : Idx} {p q : V3} (hp : InCell h c p) (hq : InCell h c q) : nsq (p - q) ≤ 3 * h ^ 2 := by
  have key : ∀ (m a b : ℝ), (m * h ≤ a ∧ a ≤ (m + 1) * h) → (m * h ≤ b ∧ b ≤ (m + 1) * h) → (a - b) * (a - b) ≤ h ^ 2 := by
    intro m a b ha hb
    have h1 : a - b ≤ h := by linarith [ha.2, hb.1]
    have h2 : -h ≤ a - b := by linarith [ha.1, hb.2]
    nlinarith
  have k1 := key _ _ _ hp.1 hq.1
  have k2 := key _ _ _ hp.2.1 hq.2.1
  have k3 := key _ _ _ hp.2.2 hq.2.2
  simp only [nsq, V3.dot, sub_x, sub_y, sub_z]
  linarith

/-- C86: every point of the outer surface of the mesh is nearer than `max_cell_circumradius` to a point where the level set is zero, for
every continuous level set. -/
theorem C86_surface_near_boundary (mc : MarchingCubes) (build : TetBuild) (hmc : IsMarchingCubes mc) (hb : IsTetBuild build) (f : V3 → ℝ)
    (hf : ContinuousOnLines f) (R r : ℝ) (hR : 0 < R) (hr : 0 < r) (mesh : TetraMesh) (h : meshFromLevelset mc build f R r = .ok mesh)
    (p : V3) (hp : OnOuterSurface mesh.coord mesh.enod p) : ∃ q, f q = 0 ∧ InCube R q ∧ V3.dist p q < r := by
  obtain ⟨vs, faces, h1, h2⟩ := levelset_ok hR hr h
  have hs := spacing_pos hR hr
  obtain ⟨t, ht, a, b, c, ha, hb', hc, s1, s2, s3, n1, n2, n3, hsum, rfl⟩ := hb.outer _ _ _ _ _ h2 p hp
  obtain ⟨cell, ⟨hgrid, ⟨g1, hg1, hpos⟩, g2, hg2, hneg⟩, hv⟩ := hmc.cells _ _ _ _ _ hs h1 t ht
  have get : ∀ m ∈ tri t, ∀ v, (vs.map (· + (⟨-R, -R, -R⟩ : V3)))[m]? = some v → ∃ w, v = w + ⟨-R, -R, -R⟩ ∧ InCell (spacing R r) cell w := by
    intro m hm v hmv
    obtain ⟨w, hw, hin⟩ := hv m hm
    rw [List.getElem?_map, hw] at hmv
    exact ⟨w, (Option.some.inj hmv).symm, hin⟩
  obtain ⟨a', rfl, ia⟩ := get t.1 (by simp [tri]) a ha
  obtain ⟨b', rfl, ib⟩ := get t.2.1 (by simp [tri]) b hb'
  obtain ⟨c', rfl, ic⟩ := get t.2.2 (by simp [tri]) c hc
  set w := s1 • a' + s2 • b' + s3 • c' with hw
  have iw : InCell (spacing R r) cell w :=
    ⟨comb3_le n1 n2 n3 hsum ia.1 ib.1 ic.1, comb3_le n1 n2 n3 hsum ia.2.1 ib.2.1 ic.2.1, comb3_le n1 n2 n3 hsum ia.2.2 ib.2.2 ic.2.2⟩
  have hsp : ∀ g : Idx, samplePoint R r g = node (spacing R r) g + ⟨-R, -R, -R⟩ := by
    intro g; unfold samplePoint node; ext <;> simp <;> ring
  unfold Positive at hpos hneg
  rw [sampleVolume_eq] at hpos hneg
  obtain ⟨τ, t0, t1, hz⟩ := zero_between hf hpos (not_lt.mp hneg)
  have iq := inCell_segment (inCell_corner hs hg1) (inCell_corner hs hg2) t0 t1
  have e : samplePoint R r g1 + τ • (samplePoint R r g2 - samplePoint R r g1) =
      (node (spacing R r) g1 + τ • (node (spacing R r) g2 - node (spacing R r) g1)) + ⟨-R, -R, -R⟩ := by
    rw [hsp, hsp]; ext <;> simp <;> ring
  rw [e] at hz
  refine ⟨_, hz, cell_in_cube hR hr hgrid iq, ?_⟩
  have e2 : s1 • (a' + ⟨-R, -R, -R⟩) + s2 • (b' + ⟨-R, -R, -R⟩) + s3 • (c' + ⟨-R, -R, -R⟩) = w + (⟨-R, -R, -R⟩ : V3) := by
    have : s3 = 1 - s1 - s2 := by linarith
    rw [hw, this]; ext <;> simp <;> ring
  rw [e2]
  have hd := inCell_dist iw iq
  unfold V3.dist V3.norm
  rw [add_sub_add_right_eq_sub, Real.sqrt_lt' hr]
  have hle := spacing_le hR hr
  have : spacing R r ^ 2 ≤ (5 / 9 * r) ^ 2 := by nlinarith
  nlinarith

/-- C86: all nodes of the mesh are in the cube of half side `bounding_radius`. -/
theorem C86_inside_cube (mc : MarchingCubes) (build : TetBuild) (hmc : IsMarchingCubes mc) (hb : IsTetBuild build) (f : V3 → ℝ)
    (R r : ℝ) (hR : 0 < R) (hr : 0 < r) (mesh : TetraMesh) (h : meshFromLevelset mc build f R r = .ok mesh) :
    ∀ p ∈ mesh.coord, InCube R p := by
  intro p hp
  obtain ⟨vs, faces, h1, h2⟩ := levelset_ok hR hr h
  have hs := spacing_pos hR hr
  have hconv : Convex ℝ {v : V3 | InCube R v} := by
    intro a ha b hb s t h0 h1 hst
    have key : ∀ x y : ℝ, |x| ≤ R → |y| ≤ R → |s * x + t * y| ≤ R := by
      intro x y hx hy
      have := comb_le h0 h1 hst (abs_le.mp hx) (abs_le.mp hy)
      exact abs_le.mpr this
    exact ⟨key _ _ ha.1 hb.1, key _ _ ha.2.1 hb.2.1, key _ _ ha.2.2 hb.2.2⟩
  refine convexHull_min ?_ hconv (hb.hull _ _ _ _ _ h2 p hp)
  intro v hv
  obtain ⟨w, hw, rfl⟩ := List.mem_map.mp hv
  obtain ⟨m, hm, rfl⟩ := List.mem_iff_getElem.mp hw
  obtain ⟨t, ht, hmt⟩ := hmc.used _ _ _ _ _ hs h1 m hm
  obtain ⟨cell, ⟨hgrid, -⟩, hv⟩ := hmc.cells _ _ _ _ _ hs h1 t ht
  obtain ⟨w', hw', hin⟩ := hv m hmt
  rw [List.getElem?_eq_getElem hm] at hw'
  obtain rfl := Option.some.inj hw'
  exact cell_in_cube hR hr hgrid hin

/-- C86: no element of the mesh has a volume above a sixth of the cube of `max_cell_circumradius`. -/
theorem C86_volumes (mc : MarchingCubes) (build : TetBuild) (hb : IsTetBuild build) (f : V3 → ℝ)
    (R r : ℝ) (hR : 0 < R) (hr : 0 < r) (mesh : TetraMesh) (h : meshFromLevelset mc build f R r = .ok mesh) :
    ∀ t ∈ elements mesh.coord mesh.enod, sixVolume t / 6 ≤ r ^ 3 / 6 := by
  obtain ⟨vs, faces, -, h2⟩ := levelset_ok hR hr h
  exact hb.volume _ _ _ _ _ h2

/-- C86: a body that contains no sample point, or all of them, is refused (`ValueError`). -/
theorem C86_missed_refused (mc : MarchingCubes) (build : TetBuild) (hmc : IsMarchingCubes mc) (f : V3 → ℝ)
    (R r : ℝ) (hR : 0 < R) (hr : 0 < r)
    (h : (∀ a, InGrid (samples R r) a → 0 < f (samplePoint R r a)) ∨ ∀ a, InGrid (samples R r) a → f (samplePoint R r a) ≤ 0) :
    meshFromLevelset mc build f R r = .error .valueError := by
  have hm := hmc.refuses (samples R r) (sampleVolume f R (samples R r)) (spacing R r) (spacing_pos hR hr) (by
    rcases h with h | h
    · exact Or.inl fun a ha => h a ha
    · exact Or.inr fun a ha => not_lt.mpr (h a ha))
  have e1 : gridAxis R (samples R r) 1 - gridAxis R (samples R r) 0 = spacing R r := by unfold gridAxis spacing; push_cast; ring
  have hsurf : surfaceOf mc f R (samples R r) = .error .valueError := by
    unfold surfaceOf
    rw [e1]
    rcases hm with hm | hm <;> simp only [hm]
  unfold meshFromLevelset
  rw [if_neg hr.ne', gridCount_eq hR hr, hsurf]

/-- C86: every failure of the two steps is reported as a `ValueError`: marching cubes raising `ValueError` or `RuntimeError`, an empty surface,
the mesher raising anything, an empty mesh. -/
theorem C86_failures_are_valueErrors (mc : MarchingCubes) (build : TetBuild) (f : V3 → ℝ) (R r : ℝ) (hr : r ≠ 0)
    (h : (∀ n vol h, mc n vol h = .error .valueError ∨ mc n vol h = .error .runtimeError ∨
            ∃ verts faces, mc n vol h = .ok (verts, faces) ∧ (verts = [] ∨ faces = [])) ∨
      ((∀ n vol h, (∃ s, mc n vol h = .ok s) ∨ mc n vol h = .error .valueError ∨ mc n vol h = .error .runtimeError) ∧
        ∀ verts faces V, (∃ e, build verts faces V = .error e) ∨
            ∃ pts els, build verts faces V = .ok (pts, els) ∧ (pts = [] ∨ els = []))) :
    meshFromLevelset mc build f R r = .error .valueError := by
  unfold meshFromLevelset
  rw [if_neg hr]
  rcases h with h | ⟨h1, h2⟩
  · have hs : surfaceOf mc f R (gridCount R r) = .error .valueError := by
      unfold surfaceOf
      dsimp only
      rcases h (gridCount R r) (sampleVolume f R (gridCount R r)) ⟨gridAxis R (gridCount R r) 1 - gridAxis R (gridCount R r) 0,
        gridAxis R (gridCount R r) 1 - gridAxis R (gridCount R r) 0, gridAxis R (gridCount R r) 1 - gridAxis R (gridCount R r) 0⟩ with
        h | h | ⟨verts, faces, h, h0⟩
      · rw [h]
      · rw [h]
      · rw [h]
        dsimp only
        rw [if_pos]
        rcases h0 with rfl | rfl
        · exact Or.inl rfl
        · exact Or.inr rfl
    rw [hs]
  · have hs : surfaceOf mc f R (gridCount R r) = .error .valueError ∨ ∃ s, surfaceOf mc f R (gridCount R r) = .ok s := by
      unfold surfaceOf
      dsimp only
      rcases h1 (gridCount R r) (sampleVolume f R (gridCount R r)) ⟨gridAxis R (gridCount R r) 1 - gridAxis R (gridCount R r) 0,
        gridAxis R (gridCount R r) 1 - gridAxis R (gridCount R r) 0, gridAxis R (gridCount R r) 1 - gridAxis R (gridCount R r) 0⟩ with
        ⟨⟨verts, faces⟩, h⟩ | h | h
      · rw [h]
        dsimp only
        split_ifs
        · exact Or.inl rfl
        · exact Or.inr ⟨_, rfl⟩
      · rw [h]; exact Or.inl rfl
      · rw [h]; exact Or.inl rfl
    rcases hs with hs | ⟨⟨verts, faces⟩, hs⟩
    · rw [hs]
    · rw [hs]
      dsimp only
      rcases h2 verts faces (r ^ 3 / 6) with ⟨e, h⟩ | ⟨pts, els, h, h0⟩
      · rw [h]
      · rw [h]
        dsimp only
        rw [if_pos]
        rcases h0 with rfl | rfl
        · exact Or.inl rfl
        · exact Or.inr rfl

/-- a sample point near a given point of the cube, on one axis -/
theorem near_sample {R r : ℝ} (hR : 0 < R) (hr : 0 < r) (x : ℝ) (hx : |x| ≤ R) :
    ∃ i < samples R r, |x - (-R + i * spacing R r)| ≤ spacing R r / 2 := by
  have hs := spacing_pos hR hr
  have h1 := samples_gt hR hr
  have hsp : spacing R r * ((samples R r : ℝ) - 1) = 2 * R := by
    unfold spacing; field_simp
  rw [abs_le] at hx
  set u := (x + R) / spacing R r with hu
  have hu0 : 0 ≤ u := div_nonneg (by linarith) hs.le
  have hu1 : u ≤ (samples R r : ℝ) - 1 := by
    rw [hu, div_le_iff₀ hs]; linarith
  have hux : x = -R + u * spacing R r := by rw [hu]; field_simp; ring
  refine ⟨⌊u + 1 / 2⌋₊, ?_, ?_⟩
  · rw [Nat.floor_lt (by linarith)]
    linarith
  · have l1 := Nat.floor_le (a := u + 1 / 2) (by linarith)
    have l2 := Nat.lt_floor_add_one (u + 1 / 2)
    have e : x - (-R + (⌊u + 1 / 2⌋₊ : ℝ) * spacing R r) = (u - ⌊u + 1 / 2⌋₊) * spacing R r := by
      conv_lhs => rw [hux]
      ring
    rw [e, abs_mul, abs_of_pos hs]
    have : |u - ⌊u + 1 / 2⌋₊| ≤ 1 / 2 := by rw [abs_le]; constructor <;> linarith
    nlinarith

/-- C86: a body that contains a ball of radius `max_cell_circumradius / 2` centred in the cube, but not the whole cube's corner
`(-R, -R, -R)`, is seen: unless the mesher fails, a mesh is returned. -/
theorem C86_seen (mc : MarchingCubes) (build : TetBuild) (hmc : IsMarchingCubes mc) (f : V3 → ℝ) (R r : ℝ) (hR : 0 < R) (hr : 0 < r)
    (hbuild : ∀ verts faces, verts ≠ [] → faces ≠ [] → ∃ pts els mesh, build verts faces (r ^ 3 / 6) = .ok (pts, els) ∧ pts ≠ [] ∧ els ≠ [] ∧
      TetraMesh.new pts els = .ok mesh)
    (o : V3) (ho : InCube R o) (hin : ∀ p, V3.dist p o < r / 2 → 0 < f p) (hout : f ⟨-R, -R, -R⟩ ≤ 0) :
    ∃ mesh, meshFromLevelset mc build f R r = .ok mesh := by
  have hs := spacing_pos hR hr
  have hle := spacing_le hR hr
  obtain ⟨i, hi, di⟩ := near_sample hR hr o.x ho.1
  obtain ⟨j, hj, dj⟩ := near_sample hR hr o.y ho.2.1
  obtain ⟨k, hk, dk⟩ := near_sample hR hr o.z ho.2.2
  have hpos : 0 < f (samplePoint R r (i, j, k)) := by
    apply hin
    unfold V3.dist V3.norm
    rw [Real.sqrt_lt' (by linarith)]
    have key : ∀ a : ℝ, |a| ≤ spacing R r / 2 → a * a ≤ (5 / 18 * r) ^ 2 := by
      intro a ha
      rw [abs_le] at ha
      nlinarith
    have k1 := key _ di
    have k2 := key _ dj
    have k3 := key _ dk
    simp only [nsq, V3.dot, samplePoint, sub_x, sub_y, sub_z]
    nlinarith
  have h0 : samplePoint R r (0, 0, 0) = ⟨-R, -R, -R⟩ := by unfold samplePoint; simp
  have h20 := twenty_le_samples R r
  obtain ⟨vs, faces, hm, hv, hfc⟩ := hmc.accepts (samples R r) (sampleVolume f R (samples R r)) (spacing R r) (by omega) hs
    ⟨(i, j, k), ⟨hi, hj, hk⟩, hpos⟩ ⟨(0, 0, 0), ⟨by show 0 < _; omega, by show 0 < _; omega, by show 0 < _; omega⟩, by
      unfold Positive
      rw [sampleVolume_eq f R r (0, 0, 0), h0]
      exact not_lt.mpr hout⟩
  have e1 : gridAxis R (samples R r) 1 - gridAxis R (samples R r) 0 = spacing R r := by unfold gridAxis spacing; push_cast; ring
  have hsurf : surfaceOf mc f R (samples R r) = .ok (vs.map (· + gridPoint R (samples R r) 0 0 0), faces) := by
    unfold surfaceOf
    rw [e1]
    simp only [hm]
    rw [if_neg]
    simp [hv, hfc]
  obtain ⟨pts, els, mesh, hbd, hp, he, hnew⟩ := hbuild (vs.map (· + gridPoint R (samples R r) 0 0 0)) faces (by simpa using hv) hfc
  refine ⟨mesh, ?_⟩
  unfold meshFromLevelset
  rw [if_neg hr.ne', gridCount_eq hR hr, hsurf]
  dsimp only
  rw [hbd]
  dsimp only
  rw [if_neg, hnew]
  simp [hp, he]

theorem samples_eq_20 {R r : ℝ} (hr : 0 < r) (h : 4 * R < 21 * r) : samples R r = 20 := by
  unfold samples
  apply max_eq_right
  have : ⌊4 * R / r⌋₊ < 21 := by
    by_cases h0 : 0 ≤ 4 * R / r
    · rw [Nat.floor_lt h0, div_lt_iff₀ hr]
      push_cast
      exact h
    · rw [Nat.floor_of_nonpos (not_le.mp h0).le]
      norm_num
  omega

/-- C86, limit: a ball around the origin whose radius is below a tenth of the bounding radius (`√3/19` of it) is not found, whatever the
requested element size above a fifth of the bounding radius: no sample is taken at the origin. -/
theorem C86_small_ball_fails (mc : MarchingCubes) (build : TetBuild) (hmc : IsMarchingCubes mc) (R r ρ : ℝ) (hR : 0 < R) (hr : 4 * R < 21 * r)
    (hρ : ρ ≤ Real.sqrt 3 * R / 19) : meshFromLevelset mc build (fun p => ρ - norm p) R r = .error .valueError := by
  have hr0 : 0 < r := by linarith
  apply C86_missed_refused mc build hmc _ R r hR hr0
  right
  rintro ⟨i, j, k⟩ ⟨hi, hj, hk⟩
  have hs : spacing R r = 2 * R / 19 := by
    unfold spacing
    rw [samples_eq_20 hr0 hr]
    norm_num
  have key : ∀ m : ℕ, (R / 19) ^ 2 ≤ (-R + m * (2 * R / 19)) * (-R + m * (2 * R / 19)) := by
    intro m
    have e : (-R + m * (2 * R / 19)) * (-R + m * (2 * R / 19)) = (R / 19) ^ 2 * (((2 * (m : ℤ) - 19) ^ 2 : ℤ) : ℝ) := by push_cast; ring
    rw [e]
    have h1 : (1 : ℤ) ≤ (2 * (m : ℤ) - 19) ^ 2 := by
      have : 2 * (m : ℤ) - 19 ≤ -1 ∨ 1 ≤ 2 * (m : ℤ) - 19 := by omega
      rcases this with h | h <;> nlinarith
    have h2 : (1 : ℝ) ≤ (((2 * (m : ℤ) - 19) ^ 2 : ℤ) : ℝ) := by exact_mod_cast h1
    nlinarith [sq_nonneg (R / 19)]
  have hn : Real.sqrt 3 * R / 19 ≤ norm (samplePoint R r (i, j, k)) := by
    unfold V3.norm
    apply Real.le_sqrt_of_sq_le
    have : (Real.sqrt 3 * R / 19) ^ 2 = 3 * (R / 19) ^ 2 := by
      rw [div_pow, mul_pow, Real.sq_sqrt (by norm_num)]; ring
    rw [this]
    simp only [nsq, V3.dot, samplePoint, hs]
    linarith [key i, key j, key k]
  show ρ - norm (samplePoint R r (i, j, k)) ≤ 0
  linarith

/-- a long thin tetrahedron -/
def thinTet (L e : ℝ) : List V3 := [⟨0, 0, 0⟩, ⟨L, 0, 0⟩, ⟨0, e, 0⟩, ⟨0, 0, e⟩]

/-- C86, limit: `max_cell_circumradius` only limits the volume of the elements, and a volume limit is no limit of their radius: for every
volume limit and every number `K` there is a mesh respecting the limit whose element has a radius above `K`. -/
theorem C86_radius_fails (r K : ℝ) (hr : 0 < r) (hK : 0 < K) :
    ∃ coord enod mesh, TetraMesh.new coord enod = .ok mesh ∧ (∀ t ∈ elements mesh.coord mesh.enod, sixVolume t / 6 ≤ r ^ 3 / 6) ∧
      ∃ ρ ∈ mesh.eradius, K < ρ := by
  set L := 3 * K with hL
  set e := min 1 (r ^ 3 / L) with he
  have hLp : 0 < L := by positivity
  have hep : 0 < e := lt_min one_pos (by positivity)
  have he1 : e ≤ 1 := min_le_left _ _
  have he2 : L * e ≤ r ^ 3 := by
    have := min_le_right 1 (r ^ 3 / L)
    rw [← he, le_div_iff₀ hLp] at this
    linarith
  have hel : elements (thinTet L e) [⟨0, 1, 2, 3⟩] = [⟨⟨0, 0, 0⟩, ⟨L, 0, 0⟩, ⟨0, e, 0⟩, ⟨0, 0, e⟩⟩] := rfl
  have hdet : dot (cross ((⟨L, 0, 0⟩ : V3) - ⟨0, 0, 0⟩) ((⟨0, e, 0⟩ : V3) - ⟨0, 0, 0⟩)) ((⟨0, 0, e⟩ : V3) - ⟨0, 0, 0⟩) = L * e * e := by
    simp [V3.dot, V3.cross]
  have hnew : TetraMesh.new (thinTet L e) [⟨0, 1, 2, 3⟩] = .ok (TetraMesh.ofData (thinTet L e) [⟨0, 1, 2, 3⟩]) := by
    unfold TetraMesh.new
    rw [if_pos, if_pos]
    · intro t ht
      rw [hel, List.mem_singleton] at ht
      subst ht
      unfold signedVolume
      dsimp only
      rw [hdet]
      positivity
    · intro q hq i hi
      rw [List.mem_singleton] at hq
      subst hq
      simp only [Q4.toList, List.mem_cons, List.not_mem_nil, or_false] at hi
      have : (thinTet L e).length = 4 := rfl
      omega
  refine ⟨_, _, _, hnew, ?_, ?_⟩
  · intro t ht
    have ht' : t ∈ elements (thinTet L e) [⟨0, 1, 2, 3⟩] := ht
    rw [hel, List.mem_singleton] at ht'
    subst ht'
    unfold sixVolume
    dsimp only
    rw [hdet, abs_of_pos (by positivity)]
    have : L * e * e ≤ r ^ 3 := by nlinarith [mul_pos hLp hep]
    linarith
  · obtain ⟨c, ρ, p, hc, hρ, hp, hd⟩ := C13_bounding_spheres _ _ _ hnew 0 (by simp) 0 (by norm_num)
    obtain ⟨c', ρ', q, hc', hρ', hq, hd'⟩ := C13_bounding_spheres _ _ _ hnew 0 (by simp) 1 (by norm_num)
    rw [hc] at hc'
    obtain rfl := Option.some.inj hc'
    rw [hρ] at hρ'
    obtain rfl := Option.some.inj hρ'
    obtain rfl : p = ⟨0, 0, 0⟩ := (Option.some.inj hp).symm
    obtain rfl : q = ⟨L, 0, 0⟩ := (Option.some.inj hq).symm
    refine ⟨ρ, List.mem_of_getElem? hρ, ?_⟩
    have htri := V3.norm_add_le ((⟨L, 0, 0⟩ : V3) - c) (c - ⟨0, 0, 0⟩)
    have e1 : (⟨L, 0, 0⟩ : V3) - c + (c - ⟨0, 0, 0⟩) = ⟨L, 0, 0⟩ := by ext <;> simp
    have e2 : norm (⟨L, 0, 0⟩ : V3) = L := by
      unfold V3.norm
      rw [show nsq (⟨L, 0, 0⟩ : V3) = L * L by simp [nsq, V3.dot]]
      exact Real.sqrt_mul_self hLp.le
    rw [e1, e2, V3.norm_sub_comm c] at htri
    unfold V3.dist at hd hd'
    linarith

/-! ### the specifications can be met, and a scene -/

/-- midpoint of two grid points -/
noncomputable def midNode (h : ℝ) (ab : Idx × Idx) : V3 := (1 / 2 : ℝ) • (node h ab.1 + node h ab.2)

/-- all grid points -/
def allIdx (n : ℕ) : List Idx := (List.range n).flatMap fun i => (List.range n).flatMap fun j => (List.range n).map fun k => (i, j, k)

theorem mem_allIdx {n : ℕ} {a : Idx} : a ∈ allIdx n ↔ InGrid n a := by
  obtain ⟨i, j, k⟩ := a
  simp [allIdx, InGrid]

/-- the grid edges between a positive point and one that is not -/
noncomputable def crossedEdges (n : ℕ) (vol : Volume) : List (Idx × Idx) :=
  ((allIdx n).flatMap fun a => (allIdx n).map fun b => (a, b)).filter fun ab => NextTo ab.1 ab.2 ∧ ¬ (Positive vol ab.1 ↔ Positive vol ab.2)

theorem mem_crossedEdges {n : ℕ} {vol : Volume} {a b : Idx} :
    (a, b) ∈ crossedEdges n vol ↔ InGrid n a ∧ InGrid n b ∧ NextTo a b ∧ ¬ (Positive vol a ↔ Positive vol b) := by
  unfold crossedEdges
  rw [List.mem_filter]
  simp only [List.mem_flatMap, List.mem_map, mem_allIdx, Prod.mk.injEq, decide_eq_true_eq]
  constructor
  · rintro ⟨⟨a', ha, b', hb, rfl, rfl⟩, h⟩
    exact ⟨ha, hb, h⟩
  · rintro ⟨ha, hb, h⟩
    exact ⟨⟨a, ha, b, hb, rfl, rfl⟩, h⟩

/-- crude surfaces: a vertex in the middle of every crossed edge, and all triangles of vertices of one crossed cell -/
noncomputable def crudeFaces (n : ℕ) (vol : Volume) (h : ℝ) (verts : List V3) : List (ℕ × ℕ × ℕ) :=
  (allIdx verts.length).filter fun t => ∃ c, Crossed n vol c ∧ ∀ m ∈ tri t, ∃ v, verts[m]? = some v ∧ InCell h c v

/-- a crude form of marching cubes that meets the specification -/
noncomputable def crudeMC : MarchingCubes := fun n vol sp =>
  if (∃ a, InGrid n a ∧ Positive vol a) ∧ ∃ b, InGrid n b ∧ ¬ Positive vol b then
    .ok ((crossedEdges n vol).map (midNode sp.x), crudeFaces n vol sp.x ((crossedEdges n vol).map (midNode sp.x)))
  else .error .valueError

theorem crudeMC_ok {n : ℕ} {vol : Volume} {h : ℝ} {verts : List V3} {faces : List (ℕ × ℕ × ℕ)} (hm : crudeMC n vol ⟨h, h, h⟩ = .ok (verts, faces)) :
    verts = (crossedEdges n vol).map (midNode h) ∧ faces = crudeFaces n vol h verts := by
  unfold crudeMC at hm
  split_ifs at hm
  have := Except.ok.inj hm
  simp only [Prod.mk.injEq] at this
  obtain ⟨rfl, rfl⟩ := this
  exact ⟨rfl, rfl⟩

/-- a crossed edge lies in a crossed cell -/
theorem edge_cell {n : ℕ} {vol : Volume} {h : ℝ} (hh : 0 < h) {a b : Idx} (hab : (a, b) ∈ crossedEdges n vol) :
    ∃ c, Crossed n vol c ∧ InCell h c (midNode h (a, b)) := by
  obtain ⟨ha, hb, hn, hd⟩ := mem_crossedEdges.mp hab
  obtain ⟨c, hg, hca, hcb⟩ : ∃ c, InGrid n (c.1 + 1, c.2.1 + 1, c.2.2 + 1) ∧ Corner c a ∧ Corner c b := by
    obtain ⟨i, j, k⟩ := a
    obtain ⟨i', j', k'⟩ := b
    obtain ⟨a1, a2, a3⟩ := ha
    obtain ⟨b1, b2, b3⟩ := hb
    simp only at a1 a2 a3 b1 b2 b3
    rcases hn with hn | hn | hn <;> simp only [Prod.mk.injEq] at hn <;> obtain ⟨rfl, rfl, rfl⟩ := hn
    · exact ⟨(i, min j' (n - 2), min k' (n - 2)), ⟨by dsimp only; omega, by dsimp only; omega, by dsimp only; omega⟩,
        ⟨by dsimp only; omega, by dsimp only; omega, by dsimp only; omega⟩, ⟨by dsimp only; omega, by dsimp only; omega, by dsimp only; omega⟩⟩
    · exact ⟨(min i' (n - 2), j, min k' (n - 2)), ⟨by dsimp only; omega, by dsimp only; omega, by dsimp only; omega⟩,
        ⟨by dsimp only; omega, by dsimp only; omega, by dsimp only; omega⟩, ⟨by dsimp only; omega, by dsimp only; omega, by dsimp only; omega⟩⟩
    · exact ⟨(min i' (n - 2), min j' (n - 2), k), ⟨by dsimp only; omega, by dsimp only; omega, by dsimp only; omega⟩,
        ⟨by dsimp only; omega, by dsimp only; omega, by dsimp only; omega⟩, ⟨by dsimp only; omega, by dsimp only; omega, by dsimp only; omega⟩⟩
  refine ⟨c, ⟨hg, ?_⟩, ?_⟩
  · by_cases hp : Positive vol a
    · exact ⟨⟨a, hca, hp⟩, b, hcb, fun h => hd ⟨fun _ => h, fun _ => hp⟩⟩
    · refine ⟨⟨b, hcb, ?_⟩, a, hca, hp⟩
      by_contra h
      exact hd ⟨fun h' => absurd h' hp, fun h' => absurd h' h⟩
  · have := inCell_segment (inCell_corner hh hca) (inCell_corner hh hcb) (t := 1 / 2) (by norm_num) (by norm_num)
    have e : node h a + (1 / 2 : ℝ) • (node h b - node h a) = midNode h (a, b) := by
      unfold midNode; ext <;> simp <;> ring
    rwa [e] at this

/-- values of both signs somewhere on the grid: then also at two neighbours -/
theorem crossing_exists {n : ℕ} {vol : Volume} (hp : ∃ a, InGrid n a ∧ Positive vol a) (hq : ∃ b, InGrid n b ∧ ¬ Positive vol b) :
    ∃ ab, ab ∈ crossedEdges n vol := by
  by_contra hno
  have same : ∀ a b : Idx, InGrid n a → InGrid n b → NextTo a b → (Positive vol a ↔ Positive vol b) := by
    intro a b ha hb hn
    by_contra hd
    exact hno ⟨(a, b), mem_crossedEdges.mpr ⟨ha, hb, hn, hd⟩⟩
  have k1 : ∀ i j k, InGrid n (i, j, k) → (Positive vol (i, j, k) ↔ Positive vol (0, j, k)) := by
    intro i j k
    induction i with
    | zero => intro _; exact Iff.rfl
    | succ i ih =>
      intro h
      have h' : InGrid n (i, j, k) := ⟨by have := h.1; dsimp only at this ⊢; omega, h.2.1, h.2.2⟩
      rw [← same (i, j, k) (i + 1, j, k) h' h (Or.inl rfl)]
      exact ih h'
  have k2 : ∀ j k, InGrid n (0, j, k) → (Positive vol (0, j, k) ↔ Positive vol (0, 0, k)) := by
    intro j k
    induction j with
    | zero => intro _; exact Iff.rfl
    | succ j ih =>
      intro h
      have h' : InGrid n (0, j, k) := ⟨h.1, by have := h.2.1; dsimp only at this ⊢; omega, h.2.2⟩
      rw [← same (0, j, k) (0, j + 1, k) h' h (Or.inr (Or.inl rfl))]
      exact ih h'
  have k3 : ∀ k, InGrid n (0, 0, k) → (Positive vol (0, 0, k) ↔ Positive vol (0, 0, 0)) := by
    intro k
    induction k with
    | zero => intro _; exact Iff.rfl
    | succ k ih =>
      intro h
      have h' : InGrid n (0, 0, k) := ⟨h.1, h.2.1, by have := h.2.2; dsimp only at this ⊢; omega⟩
      rw [← same (0, 0, k) (0, 0, k + 1) h' h (Or.inr (Or.inr rfl))]
      exact ih h'
  have all : ∀ a, InGrid n a → (Positive vol a ↔ Positive vol (0, 0, 0)) := by
    rintro ⟨i, j, k⟩ h
    have hn : 0 < n := lt_of_le_of_lt (Nat.zero_le _) h.1
    exact (k1 i j k h).trans ((k2 j k ⟨hn, h.2.1, h.2.2⟩).trans (k3 k ⟨hn, hn, h.2.2⟩))
  obtain ⟨a, ha, hpa⟩ := hp
  obtain ⟨b, hb, hqb⟩ := hq
  exact hqb ((all b hb).mpr ((all a ha).mp hpa))

theorem crude_used {n : ℕ} {vol : Volume} {h : ℝ} (hh : 0 < h) (m : ℕ) (hm : m < ((crossedEdges n vol).map (midNode h)).length) :
    (m, m, m) ∈ crudeFaces n vol h ((crossedEdges n vol).map (midNode h)) := by
  unfold crudeFaces
  rw [List.mem_filter, mem_allIdx]
  refine ⟨⟨hm, hm, hm⟩, ?_⟩
  rw [decide_eq_true_eq]
  have hm' : m < (crossedEdges n vol).length := by rwa [List.length_map] at hm
  obtain ⟨c, hc, hin⟩ := edge_cell (a := (crossedEdges n vol)[m].1) (b := (crossedEdges n vol)[m].2) hh (List.getElem_mem hm')
  refine ⟨c, hc, ?_⟩
  intro m' hmem
  have : m' = m := by simpa [tri] using hmem
  subst this
  refine ⟨_, ?_, hin⟩
  rw [List.getElem?_map, List.getElem?_eq_getElem hm']
  rfl

theorem crudeMC_spec : IsMarchingCubes crudeMC := by
  refine ⟨?_, ?_, ?_, ?_, ?_⟩
  · intro n vol h verts faces hh hm t ht
    obtain ⟨-, rfl⟩ := crudeMC_ok hm
    unfold crudeFaces at ht
    rw [List.mem_filter, decide_eq_true_eq] at ht
    exact ht.2
  · intro n vol h verts faces hh hm m hlt
    obtain ⟨rfl, rfl⟩ := crudeMC_ok hm
    exact ⟨(m, m, m), crude_used hh m hlt, by simp [tri]⟩
  · intro n vol h verts faces hh hm a b ha hb hn hp hq
    obtain ⟨rfl, -⟩ := crudeMC_ok hm
    have hd : ¬ (Positive vol a ↔ Positive vol b) := fun h => hq (h.mp hp)
    rcases hn with hn | hn
    · refine ⟨midNode h (a, b), List.mem_map_of_mem (mem_crossedEdges.mpr ⟨ha, hb, hn, hd⟩), 1 / 2, by norm_num, by norm_num, ?_⟩
      unfold midNode; ext <;> simp <;> ring
    · refine ⟨midNode h (b, a), List.mem_map_of_mem (mem_crossedEdges.mpr ⟨hb, ha, hn, fun h => hd h.symm⟩), 1 / 2, by norm_num, by norm_num, ?_⟩
      unfold midNode; ext <;> simp <;> ring
  · intro n vol h hh hu
    left
    unfold crudeMC
    rw [if_neg]
    rintro ⟨⟨a, ha, hpa⟩, b, hb, hqb⟩
    rcases hu with hu | hu
    · exact hqb (hu b hb)
    · exact hu a ha hpa
  · intro n vol h hn hh hp hq
    obtain ⟨ab, hab⟩ := crossing_exists hp hq
    have hlen : 0 < ((crossedEdges n vol).map (midNode h)).length := by
      rw [List.length_map]; exact List.length_pos_of_mem hab
    refine ⟨_, _, if_pos ⟨hp, hq⟩, ?_, ?_⟩
    · exact List.ne_nil_of_length_pos hlen
    · exact List.ne_nil_of_mem (crude_used hh 0 hlen)

end XRD
