import Verif.Lemmas.Turn
import Verif.Lemmas.Detector
import Verif.Lemmas.Polycrystal

/-! Lemmas for C82: behaviour of the model when all lengths are multiplied by a positive factor. -/

namespace XRD
open V3 M3 Fl
open scoped Classical

/-! ### vectors -/
section vec
variable (L : ℝ)
theorem sc_add (u v : V3) : L • u + L • v = L • (u + v) := by ext <;> simp <;> ring
theorem sc_sub (u v : V3) : L • u - L • v = L • (u - v) := by ext <;> simp <;> ring
theorem sc_comm (c : ℝ) (v : V3) : c • L • v = L • c • v := by ext <;> simp <;> ring
theorem sc_dot (u v : V3) : (L • u).dot v = L * u.dot v := by simp [V3.dot]; ring
theorem sc_dot' (u v : V3) : u.dot (L • v) = L * u.dot v := by simp [V3.dot]; ring
theorem sc_cross (u v : V3) : cross (L • u) (L • v) = (L ^ 2) • cross u v := by ext <;> simp [cross] <;> ring
theorem sc_nsq (u : V3) : nsq (L • u) = L ^ 2 * nsq u := by simp [nsq, V3.dot]; ring
theorem sc_zero : L • (0 : V3) = 0 := by ext <;> simp
theorem sc_sum (l : List V3) : (l.map (L • ·)).sum = L • l.sum := by
  induction l with
  | nil => exact (sc_zero L).symm
  | cons a l ih => rw [List.map_cons, List.sum_cons, List.sum_cons, ih, sc_add]
theorem sc_meanV (l : List V3) : meanV (l.map (L • ·)) = L • meanV l := by
  unfold meanV; rw [sc_sum, List.length_map, sc_comm]
theorem sc_mean3 (p q r : V3) : mean3 (L • p) (L • q) (L • r) = L • mean3 p q r := by
  unfold mean3; rw [sc_add, sc_add, sc_comm]
theorem sc_mean4 (t : Tet) : mean4 (t.map (L • ·)) = L • mean4 t := by
  simp only [mean4, Q4.map, sc_add, sc_comm]
theorem sc_getD (l : List V3) (i : ℕ) : (l.map (L • ·)).getD i 0 = L • l.getD i 0 := by
  rw [List.getD_eq_getElem?_getD, List.getD_eq_getElem?_getD, List.getElem?_map]
  cases l[i]? with
  | none => exact (sc_zero L).symm
  | some v => rfl
theorem sc_elements (coord : List V3) (enod : List (Q4 ℕ)) :
    elements (coord.map (L • ·)) enod = (elements coord enod).map fun t => t.map (L • ·) := by
  unfold elements
  rw [List.map_map]
  congr 1
  funext e
  simp only [Q4.map, sc_getD, Function.comp]
end vec

section pos
variable {L : ℝ} (hL : 0 < L)
include hL

theorem sc_norm (u : V3) : (L • u).norm = L * u.norm := by rw [V3.norm_smul, abs_of_pos hL]

theorem sc_signedVolume (t : Tet) : signedVolume (t.map (L • ·)) = L ^ 3 * signedVolume t := by
  simp only [signedVolume, Q4.map, sc_sub, sc_cross, sc_dot, sc_dot']; ring

theorem sc_tetVolume (t : Tet) : tetVolume (t.map (L • ·)) = L ^ 3 * tetVolume t := by
  have e : (M3.tr ⟨(t.map (L • ·)).b - (t.map (L • ·)).a, (t.map (L • ·)).c - (t.map (L • ·)).a,
      (t.map (L • ·)).d - (t.map (L • ·)).a⟩).det = L ^ 3 * (M3.tr ⟨t.b - t.a, t.c - t.a, t.d - t.a⟩).det := by
    simp [Q4.map, det, M3.tr]; ring
  unfold tetVolume
  rw [e, abs_mul, abs_of_pos (by positivity)]; ring

theorem sc_sphere2 (p q : V3) : sphere2 (L • p) (L • q) = (L • (sphere2 p q).1, L * (sphere2 p q).2) := by
  unfold sphere2
  simp only [sc_add, sc_comm, sc_sub, sc_norm hL]
  rw [mul_assoc]

theorem sc_sphere3 (p q r : V3) : sphere3 (L • p) (L • q) (L • r) = (L • (sphere3 p q r).1, L * (sphere3 p q r).2) := by
  have e : ∀ u v : V3, (1 / (2 * (cross (L • u) (L • v)).norm ^ 2)) • (((L • v).norm ^ 2) • cross (cross (L • u) (L • v)) (L • u)
      + ((L • u).norm ^ 2) • cross (cross (L • v) (L • u)) (L • v))
      = L • ((1 / (2 * (cross u v).norm ^ 2)) • ((v.norm ^ 2) • cross (cross u v) u + (u.norm ^ 2) • cross (cross v u) v)) := by
    intro u v
    have hL2 : (0 : ℝ) < L ^ 2 := by positivity
    simp only [sc_cross, V3.norm_sq, sc_nsq]
    have e2 : ∀ a b : V3, cross (L ^ 2 • a) (L • b) = L ^ 3 • cross a b := by
      intro a b; ext <;> simp [cross] <;> ring
    rw [e2, e2]
    have hne : L ≠ 0 := hL.ne'
    by_cases h0 : nsq (cross u v) = 0
    · rw [h0]; ext <;> simp
    · ext <;> simp <;> field_simp
  unfold sphere3
  simp only [sc_sub]
  rw [e, sc_add, sc_norm hL, mul_assoc]

theorem sc_sphere4 {t : Tet} (ht : signedVolume t ≠ 0) : sphere4 (t.map (L • ·)) = (L • (sphere4 t).1, L * (sphere4 t).2) := by
  have hne : L ^ 3 ≠ 0 := by positivity
  have e : (sphere4 (t.map (L • ·))).1 = L • (sphere4 t).1 := by
    rw [sphere4_spec (by rw [sc_signedVolume hL]; exact mul_ne_zero hne ht)]
    simp only [Q4.map, sc_sub, sc_nsq]
    obtain ⟨h1, h2, h3⟩ := (sphere4_spec ht _).mp rfl
    exact ⟨by rw [h1], by rw [h2], by rw [h3]⟩
  refine Prod.ext e ?_
  show norm ((t.map (L • ·)).a - (sphere4 (t.map (L • ·))).1) * slack = L * (norm (t.a - (sphere4 t).1) * slack)
  rw [e]; simp only [Q4.map, sc_sub, sc_norm hL, mul_assoc]

theorem sc_argmax (l : List ℝ) : argmax (l.map (L * ·)) = argmax l := by
  have hg : ∀ i, (l.map (L * ·)).getD i 0 = L * l.getD i 0 := by
    intro i
    rw [List.getD_eq_getElem?_getD, List.getD_eq_getElem?_getD, List.getElem?_map]
    cases l[i]? <;> simp
  unfold argmax
  rw [List.length_map]
  congr 1
  funext best i
  rw [hg, hg]
  simp only [mul_lt_mul_iff_right₀ hL]

theorem sc_sphereOf {t : Tet} (ht : signedVolume t ≠ 0) :
    sphereOf (t.map (L • ·)) = (L • (sphereOf t).1, L * (sphereOf t).2) := by
  have hs : sidesOf (t.map (L • ·)) = (sidesOf t).map (L * ·) := by
    simp only [sidesOf, V3.dist, Q4.map, sc_sub, sc_norm hL, List.map_cons, List.map_nil]
  have h2 : ∀ x y : ℝ, argmax [L * x, L * y] = argmax [x, y] := fun x y => sc_argmax hL [x, y]
  have hle : ∀ x y : ℝ, L * x - L * y ≤ 0 ↔ x - y ≤ 0 := by
    intro x y
    rw [sub_nonpos, sub_nonpos, mul_le_mul_iff_right₀ hL]
  unfold sphereOf
  simp only [hs, sc_argmax hL, get_map (fun v : V3 => L • v), sc_sphere2 hL, sc_sub, sc_norm hL, h2, ← apply_ite (fun v : V3 => L • v),
    sc_sphere3 hL, sc_sphere4 hL ht, hle,
    show (t.map (L • ·)).a = L • t.a from rfl, show (t.map (L • ·)).b = L • t.b from rfl, show (t.map (L • ·)).c = L • t.c from rfl,
    show (t.map (L • ·)).d = L • t.d from rfl]
  split_ifs <;> rfl

theorem sc_faceNormal (c p q r : V3) : faceNormal (L • c) (L • p, L • q, L • r) = faceNormal c (p, q, r) := by
  have hL2 : (0 : ℝ) < L ^ 2 := by positivity
  have hL3 : (0 : ℝ) < L ^ 3 := by positivity
  have e : ∀ n : V3, (1 / (L ^ 2 • n).norm) • L ^ 2 • n = (1 / n.norm) • n := by
    intro n
    rw [sc_norm hL2]
    by_cases hn : n.norm = 0
    · rw [V3.norm_eq_zero.mp hn]; ext <;> simp
    · ext <;> simp <;> field_simp
  have e2 : ∀ u n : V3, (L • u).dot (L ^ 2 • n) ≥ 0 ↔ u.dot n ≥ 0 := by
    intro u n
    rw [sc_dot, sc_dot']
    constructor
    · intro h
      have : 0 ≤ L ^ 3 * u.dot n := by nlinarith
      exact nonneg_of_mul_nonneg_right this hL3
    · intro h; have := mul_nonneg hL3.le h; nlinarith
  unfold faceNormal
  simp only [sc_sub, sc_cross, sc_mean3, e, e2]

theorem sc_normalsOf (t : Tet) : normalsOf (t.map (L • ·)) = normalsOf t := by
  have e : ∀ t : Tet, (facesOf t).map (fun g => mean3 g.1 g.2.1 g.2.2) =
      ⟨mean3 t.a t.b t.c, mean3 t.a t.b t.d, mean3 t.a t.c t.d, mean3 t.b t.c t.d⟩ := fun _ => rfl
  have e2 : mean4 ((facesOf (t.map (L • ·))).map (fun g => mean3 g.1 g.2.1 g.2.2)) =
      L • mean4 ((facesOf t).map (fun g => mean3 g.1 g.2.1 g.2.2)) := by
    rw [e, e, ← sc_mean4]
    simp only [Q4.map, sc_mean3]
  unfold normalsOf
  dsimp only
  rw [e2]
  simp only [facesOf, Q4.map, sc_faceNormal hL]

/-! ### meshes and polycrystals -/
omit hL

/-- the mesh with all lengths multiplied by `L` -/
noncomputable def TetraMesh.scaled (m : TetraMesh) (L : ℝ) : TetraMesh :=
  { points := m.points.map (L • ·), coord := m.coord.map (L • ·), enod := m.enod, enormals := m.enormals
    ecentroids := m.ecentroids.map (L • ·), eradius := m.eradius.map (L * ·), espherecentroids := m.espherecentroids.map (L • ·)
    evolumes := m.evolumes.map (L ^ 3 * ·), centroid := L • m.centroid }

/-- the motion with translation and origin multiplied by `L` -/
noncomputable def Motion.scaled (m : Motion) (L : ℝ) : Motion := ⟨m.axis, m.angle, L • m.translation, L • m.origin⟩

theorem sc_call1 (m : Motion) (p : V3) (t : ℝ) : (m.scaled L).call1 (L • p) t = L • m.call1 p t := by
  simp only [Motion.call1, Motion.scaled, sc_sub, mulVec_smul, sc_add, sc_comm]
theorem sc_rotate1 (m : Motion) (v : V3) (t : ℝ) : (m.scaled L).rotate1 v t = m.rotate1 v t := rfl
include hL

theorem sc_mesh_new (coord : List V3) (enod : List (Q4 ℕ)) :
    TetraMesh.new (coord.map (L • ·)) enod = (TetraMesh.new coord enod).map fun m => m.scaled L := by
  have hne : L ^ 3 ≠ 0 := by positivity
  unfold TetraMesh.new
  have e : (∀ t ∈ elements (coord.map (L • ·)) enod, signedVolume t ≠ 0) ↔ ∀ t ∈ elements coord enod, signedVolume t ≠ 0 := by
    rw [sc_elements]
    simp only [List.forall_mem_map, sc_signedVolume hL, ne_eq, mul_eq_zero, hne, false_or]
  simp only [e, List.length_map]
  split_ifs with h1 h2
  · show Except.ok _ = Except.ok _
    congr 1
    unfold TetraMesh.ofData TetraMesh.scaled
    dsimp only
    rw [sc_elements]
    simp only [List.map_map]
    congr 1
    · exact List.map_congr_left fun t _ => sc_normalsOf hL t
    · exact List.map_congr_left fun t _ => sc_mean4 L t
    · exact List.map_congr_left fun t ht => by simp only [Function.comp, sc_sphereOf hL (h2 t ht)]
    · exact List.map_congr_left fun t ht => by simp only [Function.comp, sc_sphereOf hL (h2 t ht)]
    · exact List.map_congr_left fun t _ => sc_signedVolume hL t
    · rw [← sc_meanV, List.map_map]
      congr 1
      exact List.map_congr_left fun t _ => sc_mean4 L t
  · rfl
  · rfl

end pos

/-- the polycrystal with all lengths multiplied by `L` -/
noncomputable def Polycrystal.scaled (p : Polycrystal) (L : ℝ) : Polycrystal :=
  { p with meshLab := p.meshLab.scaled L, meshSample := p.meshSample.scaled L, meshVolumes := p.meshVolumes.map (L ^ 3 * ·) }

theorem sc_poly_new {L : ℝ} (hL : 0 < L) (x : Xfab) (mesh : TetraMesh) (o s : MatArg) (ph : PhasesArg) (map : Option (List ℝ)) :
    Polycrystal.new x (mesh.scaled L) o s ph map = (Polycrystal.new x mesh o s ph map).map fun p => p.scaled L := by
  unfold Polycrystal.new
  dsimp only [TetraMesh.scaled]
  split
  · rfl
  · split
    · rfl
    · split
      · rfl
      · split
        · rfl
        · show Except.ok _ = Except.ok _
          congr 1
          unfold Polycrystal.scaled
          dsimp only [TetraMesh.scaled]
          congr 1
          rw [sc_elements, List.map_map, List.map_map]
          exact List.map_congr_left fun t _ => sc_tetVolume hL t

theorem sc_update {L : ℝ} (mesh : TetraMesh) (m : Motion) (t : ℝ) : (mesh.scaled L).update (m.scaled L) t = (mesh.update m t).scaled L := by
  unfold TetraMesh.update TetraMesh.scaled
  simp only [List.map_map, sc_call1, sc_rotate1]
  congr 1
  all_goals exact List.map_congr_left fun p _ => sc_call1 m p t

theorem sc_transform {L : ℝ} (p : Polycrystal) (m : Motion) (t : ℝ) : (p.scaled L).transform (m.scaled L) t = (p.transform m t).scaled L := by
  unfold Polycrystal.transform Polycrystal.scaled
  dsimp only
  rw [sc_update]
  rfl

end XRD
