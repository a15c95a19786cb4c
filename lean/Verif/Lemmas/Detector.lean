import Verif.Model.Detector
import Verif.Lemmas.Peaks

namespace XRD
open V3 M3 Fl
open scoped Classical

/-- expansion in an orthonormal pair of a vector orthogonal to their cross product -/
theorem expand_plane {u v w : V3} (hu : nsq u = 1) (hv : nsq v = 1) (huv : dot u v = 0) (hw : dot w (cross u v) = 0) :
    w = (dot w u) • u + (dot w v) • v := by
  set r := w - ((dot w u) • u + (dot w v) • v) with hr
  have hru : dot r u = 0 := by
    have : dot r u = dot w u - (dot w u * nsq u + dot w v * dot u v) := by
      rw [hr]; simp only [nsq, V3.dot, V3.sub_x, V3.sub_y, V3.sub_z, V3.add_x, V3.add_y, V3.add_z, V3.smul_x, V3.smul_y, V3.smul_z]; ring
    rw [this, hu, huv]; ring
  have hrv : dot r v = 0 := by
    have : dot r v = dot w v - (dot w u * dot u v + dot w v * nsq v) := by
      rw [hr]; simp only [nsq, V3.dot, V3.sub_x, V3.sub_y, V3.sub_z, V3.add_x, V3.add_y, V3.add_z, V3.smul_x, V3.smul_y, V3.smul_z]; ring
    rw [this, hv, huv]; ring
  have hrn : dot r (cross u v) = 0 := by
    have : dot r (cross u v) = dot w (cross u v) := by
      rw [hr]; simp only [V3.dot, V3.cross, V3.sub_x, V3.sub_y, V3.sub_z, V3.add_x, V3.add_y, V3.add_z, V3.smul_x, V3.smul_y, V3.smul_z]; ring
    rw [this, hw]
  have hc : cross r (cross u v) = 0 := by
    have : cross r (cross u v) = (dot r v) • u - (dot r u) • v := by
      ext <;> simp only [V3.dot, V3.cross, V3.sub_x, V3.sub_y, V3.sub_z, V3.smul_x, V3.smul_y, V3.smul_z] <;> ring
    rw [this, hru, hrv]; ext <;> simp
  have hn : nsq (cross u v) = 1 := by rw [lagrange, hu, hv, huv]; ring
  have hl := lagrange r (cross u v)
  rw [hc, hrn, hn] at hl
  have h0 : (0 : V3).nsq = 0 := nsq_eq_zero.mpr rfl
  rw [h0] at hl
  have hr0 : r = 0 := nsq_eq_zero.mp (by linarith)
  have := sub_eq_zero.mp hr0
  exact this

/-- What `Detector.__init__` establishes. -/
structure Detector.Ok (D : Detector) : Prop where
  zmax_eq : D.zmax = (D.c2 - D.c0).norm
  ymax_eq : D.ymax = (D.c1 - D.c0).norm
  zpos : 0 < D.zmax
  ypos : 0 < D.ymax
  pz : 0 < D.pz
  py : 0 < D.py
  zdhat : D.zdhat = (1 / D.zmax) • (D.c2 - D.c0)
  ydhat : D.ydhat = (1 / D.ymax) • (D.c1 - D.c0)
  zn : nsq D.zdhat = 1
  yn : nsq D.ydhat = 1
  ncross : cross D.zdhat D.ydhat ≠ 0
  normal : D.normal = (1 / (cross D.zdhat D.ydhat).norm) • cross D.zdhat D.ydhat

theorem nsq_unit {v : V3} (h : v ≠ 0) : nsq ((1 / v.norm) • v) = 1 := by
  have hn := V3.norm_pos.mpr h
  rw [← norm_eq_one, V3.norm_smul, abs_of_pos (by positivity)]; field_simp

theorem Detector.new_ok {c0 c1 c2 : V3} {np : PixArg ℤ} {ps : PixArg ℝ} {sg th : ℝ} {mr : ℤ} {l p s : Bool} {D : Detector}
    (h : Detector.new c0 c1 c2 np ps sg th mr l p s = .ok D) :
    D.Ok ∧ D.c0 = c0 ∧ D.c1 = c1 ∧ D.c2 = c2 ∧ pixelSizes D.zmax D.ymax np ps = .ok (D.pz, D.py) ∧
    D.sigma = sg ∧ D.threshold = th ∧ D.maxRadius = mr := by
  unfold Detector.new at h
  simp only at h
  split at h
  · cases h
  · rename_i pz py hps
    split_ifs at h with h1 h2
    obtain rfl := Except.ok.inj h
    push Not at h2
    have hz : c2 - c0 ≠ 0 := by
      intro h0; apply h1; rw [h0]; ext <;> simp [V3.cross]
    have hy : c1 - c0 ≠ 0 := by
      intro h0; apply h1; rw [h0]; ext <;> simp [V3.cross]
    exact ⟨⟨rfl, rfl, V3.norm_pos.mpr hz, V3.norm_pos.mpr hy, h2.1, h2.2, rfl, rfl, nsq_unit hz, nsq_unit hy, h1, rfl⟩,
      rfl, rfl, rfl, hps, rfl, rfl, rfl⟩

theorem Detector.Ok.normal_nsq {D : Detector} (h : D.Ok) : nsq D.normal = 1 := by
  rw [h.normal]; exact nsq_unit h.ncross

/-- orthogonal detector axes -/
def Detector.Orthogonal (D : Detector) : Prop := dot (D.c2 - D.c0) (D.c1 - D.c0) = 0

theorem dot_smul_left (c : ℝ) (a b : V3) : dot (c • a) b = c * dot a b := by
  simp only [V3.dot, V3.smul_x, V3.smul_y, V3.smul_z]; ring
theorem dot_smul_right (c : ℝ) (a b : V3) : dot a (c • b) = c * dot a b := by
  simp only [V3.dot, V3.smul_x, V3.smul_y, V3.smul_z]; ring
theorem dot_add_left (a b c : V3) : dot (a + b) c = dot a c + dot b c := by
  simp only [V3.dot, V3.add_x, V3.add_y, V3.add_z]; ring
theorem dot_add_right (a b c : V3) : dot a (b + c) = dot a b + dot a c := by
  simp only [V3.dot, V3.add_x, V3.add_y, V3.add_z]; ring
theorem dot_sub_left (a b c : V3) : dot (a - b) c = dot a c - dot b c := by
  simp only [V3.dot, V3.sub_x, V3.sub_y, V3.sub_z]; ring
theorem dot_sub_right (a b c : V3) : dot a (b - c) = dot a b - dot a c := by
  simp only [V3.dot, V3.sub_x, V3.sub_y, V3.sub_z]; ring
theorem dot_neg_left (a b : V3) : dot (-a) b = -dot a b := by
  simp only [V3.dot, V3.neg_x, V3.neg_y, V3.neg_z]; ring
theorem dot_neg_right (a b : V3) : dot a (-b) = -dot a b := by
  simp only [V3.dot, V3.neg_x, V3.neg_y, V3.neg_z]; ring

theorem Detector.Ok.orth {D : Detector} (h : D.Ok) (ho : D.Orthogonal) :
    dot D.zdhat D.ydhat = 0 ∧ D.normal = cross D.zdhat D.ydhat := by
  have h1 : dot D.zdhat D.ydhat = 0 := by
    rw [h.zdhat, h.ydhat, dot_smul_left, dot_smul_right, ho]; ring
  refine ⟨h1, ?_⟩
  have hn : nsq (cross D.zdhat D.ydhat) = 1 := by rw [lagrange, h.zn, h.yn, h1]; ring
  rw [h.normal, norm_eq_one.mpr hn]; ext <;> simp

namespace Detector

/-- ray parameter at which the detector plane is met -/
noncomputable def sOf (D : Detector) (ray src : V3) : ℝ := (D.c0 - src).dot D.normal / ray.dot D.normal

theorem project_finite {px py pz : Fl} {c0 e : V3} (h : IsFinite (project px py pz c0 e)) :
    IsFinite px ∧ IsFinite py ∧ IsFinite pz := by
  unfold project at h
  rw [isFinite_add, isFinite_add, isFinite_mul, isFinite_mul, isFinite_mul, isFinite_sub, isFinite_sub, isFinite_sub] at h
  exact ⟨h.1.1.1.1, h.1.2.1.1, h.2.1.1⟩

theorem project_fin (a b c : ℝ) (c0 e : V3) : project (fin a) (fin b) (fin c) c0 e = fin (dot (⟨a, b, c⟩ - c0) e) := by
  simp only [project, Fl.sub_fin, Fl.mul_fin, Fl.add_fin, V3.dot, V3.sub_x, V3.sub_y, V3.sub_z]

/-- a finite first coordinate means a transversal ray meeting the plane at `s ≥ 0` -/
theorem intersect_finite {D : Detector} {ray src : V3} (h : IsFinite (D.intersect ray src).1) :
    ray.dot D.normal ≠ 0 ∧ 0 ≤ D.sOf ray src := by
  unfold intersect at h
  simp only at h
  have h1 := (project_finite h).1
  unfold alongRay at h1
  by_cases hd : ray.dot D.normal = 0
  · exfalso
    rw [hd, Fl.div_fin, if_pos rfl] at h1
    split_ifs at h1
    · exact h1
    · rw [isFinite_add, isFinite_mul] at h1
      exact not_isFinite_infSign _ h1.2.2
  · refine ⟨hd, ?_⟩
    rw [Fl.div_fin_ne hd] at h1
    by_contra hs
    rw [if_pos (by simpa [sOf] using lt_of_not_ge hs)] at h1
    exact h1

theorem intersect_val {D : Detector} {ray src : V3} (hd : ray.dot D.normal ≠ 0) (hs : 0 ≤ D.sOf ray src) :
    (D.intersect ray src).1 = fin (dot (src + D.sOf ray src • ray - D.c0) D.zdhat) ∧
    (D.intersect ray src).2.1 = fin (dot (src + D.sOf ray src • ray - D.c0) D.ydhat) := by
  have e : ∀ a b : ℝ, alongRay a b (fin ((D.c0 - src).dot D.normal) / fin (ray.dot D.normal)) = fin (a + D.sOf ray src * b) := by
    intro a b
    rw [Fl.div_fin_ne hd]
    unfold alongRay
    rw [if_neg (by simpa [sOf] using hs)]
    simp only [Fl.mul_fin, Fl.add_fin, sOf]; congr 1; ring
  unfold intersect
  simp only [e, project_fin]
  exact ⟨rfl, rfl⟩

theorem sOf_plane {D : Detector} {ray src : V3} (hd : ray.dot D.normal ≠ 0) :
    dot (src + D.sOf ray src • ray - D.c0) D.normal = 0 := by
  rw [dot_sub_left, dot_add_left, dot_smul_left]
  have : D.sOf ray src * dot ray D.normal = dot (D.c0 - src) D.normal := by unfold sOf; field_simp
  rw [this, dot_sub_left]; ring

end Detector
end XRD
