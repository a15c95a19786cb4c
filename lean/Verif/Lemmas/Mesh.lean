import Verif.Model.Mesh
import Verif.Lemmas.Motion
import Mathlib.LinearAlgebra.Matrix.ToLinearEquiv
import Mathlib.LinearAlgebra.Matrix.Determinant.Basic

/-! Lemmas about tetrahedra: circumspheres, normals, and behaviour under rigid maps. -/

namespace XRD
open V3 M3

/-- `f` is a rotation followed by a translation. -/
def AffRot (f : V3 → V3) (R : M3) : Prop := IsRot R ∧ ∃ t : V3, ∀ p, f p = R.mulVec p + t

namespace V3
theorem dot_sub_left (a b c : V3) : (a - b).dot c = a.dot c - b.dot c := by simp [dot]; ring
theorem dot_zero_left (c : V3) : (0 : V3).dot c = 0 := by simp [dot]
theorem dot_ext {a b : V3} (h : ∀ w, a.dot w = b.dot w) : a = b := by
  have h1 := h ⟨1, 0, 0⟩
  have h2 := h ⟨0, 1, 0⟩
  have h3 := h ⟨0, 0, 1⟩
  simp [dot] at h1 h2 h3
  ext <;> assumption
theorem nsq_smul (c : ℝ) (a : V3) : (c • a).nsq = c ^ 2 * a.nsq := by simp [nsq, dot]; ring
theorem nsq_neg (a : V3) : (-a).nsq = a.nsq := by simp [nsq, dot]
theorem norm_sub_comm (a b : V3) : (a - b).norm = (b - a).norm := by
  rw [norm_eq_iff]; simp [nsq, dot]; ring
end V3

theorem M3.triple_det (R : M3) (u v w : V3) :
    (cross (R.mulVec u) (R.mulVec v)).dot (R.mulVec w) = R.det * (cross u v).dot w := by
  simp only [mulVec, V3.dot, cross, det]; ring

theorem IsRot.cross_mulVec {R : M3} (h : IsRot R) (u v : V3) :
    cross (R.mulVec u) (R.mulVec v) = R.mulVec (cross u v) := by
  apply V3.dot_ext
  intro w
  have e : w = R.mulVec (R.tr.mulVec w) := by rw [← mulVec_mul, h.2.1, one_mulVec]
  rw [e, M3.triple_det, h.2.2, M3.IsRot.dot_mulVec h.1, one_mul]

theorem IsRot.norm_mulVec {R : M3} (h : IsRot R) (u : V3) : (R.mulVec u).norm = u.norm := by
  rw [norm_eq_iff, M3.IsRot.nsq_mulVec h.1]

namespace AffRot
variable {f : V3 → V3} {R : M3}
theorem sub (h : AffRot f R) (p q : V3) : f p - f q = R.mulVec (p - q) := by
  obtain ⟨-, t, ht⟩ := h
  rw [ht, ht, mulVec_sub]; ext <;> simp
theorem norm_sub (h : AffRot f R) (p q : V3) : (f p - f q).norm = (p - q).norm := by
  rw [h.sub, IsRot.norm_mulVec h.1]
theorem add_vec (h : AffRot f R) (p u : V3) : f (p + u) = f p + R.mulVec u := by
  obtain ⟨-, t, ht⟩ := h
  rw [ht, ht, mulVec_add]; ext <;> simp <;> ring
theorem mean2 (h : AffRot f R) (p q : V3) : f ((1 / 2 : ℝ) • (p + q)) = (1 / 2 : ℝ) • (f p + f q) := by
  obtain ⟨-, t, ht⟩ := h
  rw [ht, ht, ht, mulVec_smul, mulVec_add]; ext <;> simp <;> ring
theorem mean3 (h : AffRot f R) (p q r : V3) : f (mean3 p q r) = XRD.mean3 (f p) (f q) (f r) := by
  obtain ⟨-, t, ht⟩ := h
  unfold XRD.mean3
  rw [ht, ht, ht, ht, mulVec_smul, mulVec_add, mulVec_add]; ext <;> simp <;> ring
theorem mean4 (h : AffRot f R) (t : Tet) : f (mean4 t) = XRD.mean4 (t.map f) := by
  obtain ⟨-, s, hs⟩ := h
  simp only [XRD.mean4, Q4.map]
  rw [hs, hs, hs, hs, hs, mulVec_smul, mulVec_add, mulVec_add, mulVec_add]; ext <;> simp <;> ring
theorem sum (h : AffRot f R) (t : V3) (ht : ∀ p, f p = R.mulVec p + t) (l : List V3) :
    (l.map f).sum = R.mulVec l.sum + (l.length : ℝ) • t := by
  induction l with
  | nil => ext <;> simp [mulVec, V3.dot]
  | cons p l ih =>
    rw [List.map_cons, List.sum_cons, ih, List.sum_cons, mulVec_add, ht]
    ext <;> simp <;> ring
theorem meanV (h : AffRot f R) {l : List V3} (hl : l ≠ []) : f (meanV l) = XRD.meanV (l.map f) := by
  have h' := h
  obtain ⟨-, t, ht⟩ := h'
  unfold XRD.meanV
  rw [h.sum t ht, ht, mulVec_smul, List.length_map]
  have : (l.length : ℝ) ≠ 0 := by
    simpa [List.length_eq_zero_iff] using hl
  ext <;> simp <;> field_simp
end AffRot

theorem call1_affRot (m : Motion) (ha : norm m.axis = 1) (t : ℝ) :
    AffRot (fun p => m.call1 p t) (rotMat m.axis (m.angle * t)) := by
  refine ⟨rotMat_isRot (norm_eq_one.mp ha) _, m.origin + t • m.translation -
    (rotMat m.axis (m.angle * t)).mulVec m.origin, fun p => ?_⟩
  simp only [Motion.call1, mulVec_sub]
  ext <;> simp <;> ring

theorem M3.isRot_one : IsRot (1 : M3) := ⟨by rw [tr_one, mul_one'], by rw [tr_one, mul_one'], det_one⟩

theorem translate_affRot (v : V3) : AffRot (fun p => p + v) 1 :=
  ⟨M3.isRot_one, v, fun p => by rw [one_mulVec]⟩

/-! ### circumspheres -/

theorem slack_ge : (1 : ℝ) ≤ slack := by unfold slack; norm_num
theorem le_slack {r : ℝ} (h : 0 ≤ r) : r ≤ r * slack := by nlinarith [slack_ge]

theorem det_edges (t : Tet) : (⟨t.b - t.a, t.c - t.a, t.d - t.a⟩ : M3).det = 6 * signedVolume t := by
  simp only [signedVolume, det, V3.dot, cross]; ring

theorem sphere4_spec {t : Tet} (h : signedVolume t ≠ 0) (x : V3) :
    (sphere4 t).1 = x ↔ (nsq (t.b - x) = nsq (t.a - x) ∧ nsq (t.c - x) = nsq (t.a - x) ∧ nsq (t.d - x) = nsq (t.a - x)) := by
  set A : M3 := ⟨t.b - t.a, t.c - t.a, t.d - t.a⟩ with hA
  have hdet : A.det ≠ 0 := by rw [hA, det_edges]; simpa using h
  set B : V3 := (1 / 2 : ℝ) • ⟨t.b.norm ^ 2 - t.a.norm ^ 2, t.c.norm ^ 2 - t.a.norm ^ 2, t.d.norm ^ 2 - t.a.norm ^ 2⟩ with hB
  have e1 : (sphere4 t).1 = A.inv.mulVec B := rfl
  have e2 : A.inv.mulVec B = x ↔ A.mulVec x = B := by
    constructor
    · rintro rfl; rw [← mulVec_mul, mul_inv hdet, one_mulVec]
    · rintro h'; rw [← h', ← mulVec_mul, inv_mul hdet, one_mulVec]
  rw [e1, e2, V3.ext_iff]
  simp only [hA, hB, mulVec, V3.norm_sq, V3.smul_x, V3.smul_y, V3.smul_z]
  simp only [nsq, V3.dot, V3.sub_x, V3.sub_y, V3.sub_z]
  constructor
  · rintro ⟨h1, h2, h3⟩
    exact ⟨by linear_combination -2 * h1, by linear_combination -2 * h2, by linear_combination -2 * h3⟩
  · rintro ⟨h1, h2, h3⟩
    exact ⟨by linear_combination (-1/2) * h1, by linear_combination (-1/2) * h2, by linear_combination (-1/2) * h3⟩

theorem sphere4_contains {t : Tet} (h : signedVolume t ≠ 0) :
    norm (t.a - (sphere4 t).1) ≤ (sphere4 t).2 ∧ norm (t.b - (sphere4 t).1) ≤ (sphere4 t).2 ∧
    norm (t.c - (sphere4 t).1) ≤ (sphere4 t).2 ∧ norm (t.d - (sphere4 t).1) ≤ (sphere4 t).2 := by
  obtain ⟨h1, h2, h3⟩ := (sphere4_spec h (sphere4 t).1).mp rfl
  have e : (sphere4 t).2 = norm (t.a - (sphere4 t).1) * slack := rfl
  rw [e, norm_eq_iff.mpr h1, norm_eq_iff.mpr h2, norm_eq_iff.mpr h3]
  have := le_slack (norm_nonneg (t.a - (sphere4 t).1))
  exact ⟨this, this, this, this⟩

theorem sphere2_contains (p q : V3) :
    norm (p - (sphere2 p q).1) ≤ (sphere2 p q).2 ∧ norm (q - (sphere2 p q).1) ≤ (sphere2 p q).2 := by
  have e : (sphere2 p q).2 = norm ((sphere2 p q).1 - p) * slack := rfl
  have e1 : norm (q - (sphere2 p q).1) = norm ((sphere2 p q).1 - p) := by
    rw [norm_eq_iff]; simp [sphere2, nsq, V3.dot]; ring
  rw [e, e1, V3.norm_sub_comm p]
  exact ⟨le_slack (norm_nonneg _), le_slack (norm_nonneg _)⟩

/-! ### behaviour of the derived quantities under a rigid map -/
section equiv
variable {f : V3 → V3} {R : M3}

theorem sphere2_map (h : AffRot f R) (p q : V3) : sphere2 (f p) (f q) = (f (sphere2 p q).1, (sphere2 p q).2) := by
  have e : (1 / 2 : ℝ) • (f p + f q) = f ((1 / 2 : ℝ) • (p + q)) := (h.mean2 p q).symm
  unfold sphere2
  simp only [e, h.norm_sub]

theorem sphere3_map (h : AffRot f R) (p q r : V3) :
    sphere3 (f p) (f q) (f r) = (f (sphere3 p q r).1, (sphere3 p q r).2) := by
  have hR := h.1
  unfold sphere3
  simp only [h.sub, IsRot.cross_mulVec hR, IsRot.norm_mulVec hR, ← mulVec_smul, ← mulVec_add, h.add_vec]

theorem signedVolume_map (h : AffRot f R) (t : Tet) : signedVolume (t.map f) = signedVolume t := by
  simp only [signedVolume, Q4.map, h.sub, IsRot.cross_mulVec h.1, M3.IsRot.dot_mulVec h.1.1]

theorem nsq_sub_map (h : AffRot f R) (p q : V3) : nsq (f p - f q) = nsq (p - q) := norm_eq_iff.mp (h.norm_sub p q)

theorem sphere4_map (h : AffRot f R) {t : Tet} (ht : signedVolume t ≠ 0) :
    sphere4 (t.map f) = (f (sphere4 t).1, (sphere4 t).2) := by
  have e : (sphere4 (t.map f)).1 = f (sphere4 t).1 := by
    rw [sphere4_spec (by rwa [signedVolume_map h])]
    simp only [Q4.map, nsq_sub_map h]
    exact (sphere4_spec ht _).mp rfl
  have e2 : (sphere4 (t.map f)).2 = norm ((t.map f).a - (sphere4 (t.map f)).1) * slack := rfl
  have e3 : (sphere4 t).2 = norm (t.a - (sphere4 t).1) * slack := rfl
  refine Prod.ext e ?_
  rw [e2, e, e3]; simp only [Q4.map, h.norm_sub]

theorem get_map {α β : Type} (g : α → β) (q : Q4 α) (i : ℕ) : (q.map g).get i = g (q.get i) := by
  match i with
  | 0 => rfl | 1 => rfl | 2 => rfl | _ + 3 => rfl

theorem sidesOf_map (h : AffRot f R) (t : Tet) : sidesOf (t.map f) = sidesOf t := by
  simp only [sidesOf, V3.dist, Q4.map, h.norm_sub]

theorem sphereOf_map (h : AffRot f R) {t : Tet} (ht : signedVolume t ≠ 0) :
    sphereOf (t.map f) = (f (sphereOf t).1, (sphereOf t).2) := by
  unfold sphereOf
  simp only [sidesOf_map h, get_map, sphere2_map h, h.norm_sub, ← apply_ite f, sphere3_map h, sphere4_map h ht,
    show (t.map f).a = f t.a from rfl, show (t.map f).b = f t.b from rfl, show (t.map f).c = f t.c from rfl,
    show (t.map f).d = f t.d from rfl]
  split_ifs <;> rfl

theorem faceNormal_map (h : AffRot f R) (c p q r : V3) :
    faceNormal (f c) (f p, f q, f r) = R.mulVec (faceNormal c (p, q, r)) := by
  unfold faceNormal
  simp only [← h.mean3, h.sub, IsRot.cross_mulVec h.1, M3.IsRot.dot_mulVec h.1.1, IsRot.norm_mulVec h.1, mulVec_smul]

theorem normalsOf_map (h : AffRot f R) (t : Tet) : normalsOf (t.map f) = (normalsOf t).map R.mulVec := by
  have e : ∀ t : Tet, (facesOf t).map (fun g => mean3 g.1 g.2.1 g.2.2) =
      ⟨mean3 t.a t.b t.c, mean3 t.a t.b t.d, mean3 t.a t.c t.d, mean3 t.b t.c t.d⟩ := fun _ => rfl
  have e2 : mean4 ((facesOf (t.map f)).map (fun g => mean3 g.1 g.2.1 g.2.2)) =
      f (mean4 ((facesOf t).map (fun g => mean3 g.1 g.2.1 g.2.2))) := by
    rw [e, e, h.mean4]
    simp only [Q4.map, h.mean3]
  unfold normalsOf
  dsimp only
  rw [e2]
  simp only [facesOf, Q4.map, faceNormal_map h]

end equiv
end XRD
