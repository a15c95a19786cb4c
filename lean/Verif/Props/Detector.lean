import Verif.Lemmas.Detector
import Verif.Props.Peaks2

/-! Properties C21-C23, C34, C37, C56: detector geometry and peak preprocessing. -/

namespace XRD
open V3 M3 Fl Spec
open scoped Classical

/-! ### C21 -/

theorem Detector.Ok.normal_parallel {D : Detector} (h : D.Ok) : ∃ c : ℝ, 0 < c ∧ D.normal = c • cross (D.c2 - D.c0) (D.c1 - D.c0) := by
  have hz := h.zpos; have hy := h.ypos
  have hc : cross D.zdhat D.ydhat = (1 / D.zmax * (1 / D.ymax)) • cross (D.c2 - D.c0) (D.c1 - D.c0) := by
    rw [h.zdhat, h.ydhat]
    ext <;> simp only [V3.cross, V3.smul_x, V3.smul_y, V3.smul_z] <;> ring
  have hn := V3.norm_pos.mpr h.ncross
  refine ⟨1 / (cross D.zdhat D.ydhat).norm * (1 / D.zmax * (1 / D.ymax)), by positivity, ?_⟩
  rw [h.normal]
  set q := (cross D.zdhat D.ydhat).norm
  rw [hc]
  ext <;> simp only [V3.smul_x, V3.smul_y, V3.smul_z] <;> ring

theorem contains_iff_hit {D : Detector} (h : D.Ok) (ho : D.Orthogonal) (ray src : V3) :
    D.contains (D.intersect ray src).1 (D.intersect ray src).2.1 ↔
      ∃ u v, RayHitsAt D.c0 D.c1 D.c2 src ray u v ∧ (D.intersect ray src).1 = fin (u * D.zmax) ∧
        (D.intersect ray src).2.1 = fin (v * D.ymax) := by
  have hz := h.zpos; have hy := h.ypos
  obtain ⟨hzy, hN⟩ := h.orth ho
  obtain ⟨cn, hcn, hpar⟩ := h.normal_parallel
  have e1 : D.c2 - D.c0 = D.zmax • D.zdhat := by
    rw [h.zdhat]; ext <;> simp only [V3.smul_x, V3.smul_y, V3.smul_z] <;> field_simp
  have e2 : D.c1 - D.c0 = D.ymax • D.ydhat := by
    rw [h.ydhat]; ext <;> simp only [V3.smul_x, V3.smul_y, V3.smul_z] <;> field_simp
  constructor
  · rintro ⟨h1, h2, h3, h4⟩
    have hf := Fl.isFinite_of_between h1 h2
    obtain ⟨hd, hs⟩ := D.intersect_finite hf
    obtain ⟨v1, v2⟩ := Detector.intersect_val hd hs
    rw [v1] at h1 h2; rw [v2] at h3 h4
    simp only [Fl.le_fin] at h1 h2 h3 h4
    set P := src + D.sOf ray src • ray - D.c0 with hP
    have hpl : dot P (cross D.zdhat D.ydhat) = 0 := by rw [← hN]; exact Detector.sOf_plane hd
    have hex := expand_plane h.zn h.yn hzy hpl
    refine ⟨dot P D.zdhat / D.zmax, dot P D.ydhat / D.ymax, ⟨?_, by positivity, ?_, by positivity, ?_, D.sOf ray src, hs, ?_⟩, ?_, ?_⟩
    · intro h0; apply hd; rw [hpar, dot_smul_right, h0, mul_zero]
    · rw [div_le_one hz]; exact h2
    · rw [div_le_one hy]; exact h4
    · have : src + D.sOf ray src • ray = D.c0 + P := by rw [hP]; abel
      rw [this, e1, e2]
      conv_lhs => rw [hex]
      ext <;> simp only [V3.add_x, V3.add_y, V3.add_z, V3.smul_x, V3.smul_y, V3.smul_z] <;> field_simp <;> ring
    · rw [v1]; congr 1; field_simp
    · rw [v2]; congr 1; field_simp
  · rintro ⟨u, v, ⟨-, hu0, hu1, hv0, hv1, -⟩, e3, e4⟩
    rw [e3, e4]
    refine ⟨?_, ?_, ?_, ?_⟩ <;> simp only [Fl.le_fin]
    · positivity
    · nlinarith
    · positivity
    · nlinarith

/-- C21: on an orthogonal-axis detector a ray whose hit coordinates are within bounds meets, at a non-negative ray parameter,
the point `det_corner_0 + zd*zdhat + yd*ydhat` (written with the corners: `zdhat`, `ydhat` are the unit vectors along the
sides). -/
theorem C21_hit_is_on_ray (c0 c1 c2 : V3) (np : PixArg ℤ) (ps : PixArg ℝ) (sg th : ℝ) (mr : ℤ) (fl fp fs : Bool) (D : Detector)
    (hD : Detector.new c0 c1 c2 np ps sg th mr fl fp fs = .ok D) (ho : dot (c2 - c0) (c1 - c0) = 0) (ray src : V3)
    (hc : D.contains (D.intersect ray src).1 (D.intersect ray src).2.1) :
    ∃ zd yd s : ℝ, (D.intersect ray src).1 = fin zd ∧ (D.intersect ray src).2.1 = fin yd ∧ 0 ≤ s ∧
      0 ≤ zd ∧ zd ≤ norm (c2 - c0) ∧ 0 ≤ yd ∧ yd ≤ norm (c1 - c0) ∧
      src + s • ray = c0 + zd • ((1 / norm (c2 - c0)) • (c2 - c0)) + yd • ((1 / norm (c1 - c0)) • (c1 - c0)) := by
  obtain ⟨hok, rfl, rfl, rfl, -⟩ := Detector.new_ok hD
  obtain ⟨u, v, ⟨-, hu0, hu1, hv0, hv1, s, hs, he⟩, e3, e4⟩ := (contains_iff_hit hok ho ray src).mp hc
  have hz := hok.zpos; have hy := hok.ypos
  rw [← hok.zmax_eq, ← hok.ymax_eq]
  refine ⟨u * D.zmax, v * D.ymax, s, e3, e4, hs, by positivity, by nlinarith, by positivity, by nlinarith, ?_⟩
  rw [he]
  ext <;> simp only [V3.add_x, V3.add_y, V3.add_z, V3.smul_x, V3.smul_y, V3.smul_z] <;> field_simp

/-- C21, converse: if the ray crosses the detector rectangle, the reported coordinates are those of the crossing point. -/
theorem C21_every_hit_is_found (c0 c1 c2 : V3) (np : PixArg ℤ) (ps : PixArg ℝ) (sg th : ℝ) (mr : ℤ) (fl fp fs : Bool)
    (D : Detector) (hD : Detector.new c0 c1 c2 np ps sg th mr fl fp fs = .ok D) (ho : dot (c2 - c0) (c1 - c0) = 0)
    (ray src : V3) (u v : ℝ) (hh : RayHitsAt c0 c1 c2 src ray u v) :
    (D.intersect ray src).1 = fin (u * norm (c2 - c0)) ∧ (D.intersect ray src).2.1 = fin (v * norm (c1 - c0)) ∧
      D.contains (D.intersect ray src).1 (D.intersect ray src).2.1 := by
  obtain ⟨hok, rfl, rfl, rfl, -⟩ := Detector.new_ok hD
  have hz := hok.zpos; have hy := hok.ypos
  obtain ⟨hzy, hN⟩ := hok.orth ho
  obtain ⟨cn, hcn, hpar⟩ := hok.normal_parallel
  obtain ⟨ht, hu0, hu1, hv0, hv1, s, hs, he⟩ := hh
  have hd : ray.dot D.normal ≠ 0 := by
    rw [hpar, dot_smul_right]; exact mul_ne_zero hcn.ne' ht
  have e1 : D.c2 - D.c0 = D.zmax • D.zdhat := by
    rw [hok.zdhat]; ext <;> simp only [V3.smul_x, V3.smul_y, V3.smul_z] <;> field_simp
  have e2 : D.c1 - D.c0 = D.ymax • D.ydhat := by
    rw [hok.ydhat]; ext <;> simp only [V3.smul_x, V3.smul_y, V3.smul_z] <;> field_simp
  have hplane : dot (D.c0 - src) D.normal = s * dot ray D.normal := by
    have : D.c0 - src = s • ray - (u • (D.c2 - D.c0) + v • (D.c1 - D.c0)) := by
      have : s • ray = D.c0 + u • (D.c2 - D.c0) + v • (D.c1 - D.c0) - src := by rw [← he]; abel
      rw [this]; abel
    rw [this, dot_sub_left, dot_add_left, dot_smul_left, dot_smul_left, dot_smul_left, e1, e2, dot_smul_left, dot_smul_left]
    have z1 : dot D.zdhat D.normal = 0 := by rw [hN]; simp only [V3.dot, V3.cross]; ring
    have z2 : dot D.ydhat D.normal = 0 := by rw [hN]; simp only [V3.dot, V3.cross]; ring
    rw [z1, z2]; ring
  have hss : D.sOf ray src = s := by unfold Detector.sOf; rw [hplane]; field_simp
  obtain ⟨v1, v2⟩ := Detector.intersect_val hd (by rw [hss]; exact hs)
  rw [hss, he] at v1 v2
  have w1 : dot (D.c0 + u • (D.c2 - D.c0) + v • (D.c1 - D.c0) - D.c0) D.zdhat = u * D.zmax := by
    have : D.c0 + u • (D.c2 - D.c0) + v • (D.c1 - D.c0) - D.c0 = u • (D.c2 - D.c0) + v • (D.c1 - D.c0) := by abel
    rw [this, e1, e2, dot_add_left, dot_smul_left, dot_smul_left, dot_smul_left, dot_smul_left, V3.dot_self, hok.zn,
      V3.dot_comm D.ydhat, hzy]; ring
  have w2 : dot (D.c0 + u • (D.c2 - D.c0) + v • (D.c1 - D.c0) - D.c0) D.ydhat = v * D.ymax := by
    have : D.c0 + u • (D.c2 - D.c0) + v • (D.c1 - D.c0) - D.c0 = u • (D.c2 - D.c0) + v • (D.c1 - D.c0) := by abel
    rw [this, e1, e2, dot_add_left, dot_smul_left, dot_smul_left, dot_smul_left, dot_smul_left, V3.dot_self, hok.yn, hzy]; ring
  rw [w1] at v1; rw [w2] at v2
  rw [← hok.zmax_eq, ← hok.ymax_eq, v1, v2]
  refine ⟨rfl, rfl, ?_, ?_, ?_, ?_⟩ <;> simp only [Fl.le_fin]
  · positivity
  · nlinarith
  · positivity
  · nlinarith

/-- C21: rays parallel to the detector plane, or pointing away from it, are never reported as hits (any detector). -/
theorem C21_no_hit_parallel_or_away (D : Detector) (ray src : V3)
    (h : dot ray D.normal = 0 ∨ dot (D.c0 - src) D.normal * dot ray D.normal < 0) :
    ¬ D.contains (D.intersect ray src).1 (D.intersect ray src).2.1 := by
  rintro ⟨h1, h2, -, -⟩
  obtain ⟨hd, hs⟩ := D.intersect_finite (Fl.isFinite_of_between h1 h2)
  rcases h with h | h
  · exact hd h
  · unfold Detector.sOf at hs
    have : (D.c0 - src).dot D.normal / ray.dot D.normal < 0 := by
      rw [div_neg_iff]
      rcases lt_or_gt_of_ne hd with h5 | h5
      · left; exact ⟨by nlinarith, h5⟩
      · right; exact ⟨by nlinarith, h5⟩
    linarith

/-- C21: the third output is the angle between the ray and the reversed detector normal, in degrees. -/
theorem C21_incident_angle (c0 c1 c2 : V3) (np : PixArg ℤ) (ps : PixArg ℝ) (sg th : ℝ) (mr : ℤ) (fl fp fs : Bool)
    (D : Detector) (hD : Detector.new c0 c1 c2 np ps sg th mr fl fp fs = .ok D) (ray src : V3) (hr : ray ≠ 0) :
    (D.intersect ray src).2.2 = fin (angle ray (-(cross (c2 - c0) (c1 - c0))) * (180 / Real.pi)) := by
  obtain ⟨hok, rfl, rfl, rfl, -⟩ := Detector.new_ok hD
  obtain ⟨cn, hcn, hpar⟩ := hok.normal_parallel
  have hn1 : D.normal.norm = 1 := norm_eq_one.mpr hok.normal_nsq
  have hrn := V3.norm_pos.mpr hr
  set N := cross (D.c2 - D.c0) (D.c1 - D.c0) with hNdef
  have hNn : cn * N.norm = 1 := by
    rw [← hn1, hpar, V3.norm_smul, abs_of_pos hcn]
  have hNpos : N.norm ≠ 0 := by intro h; rw [h] at hNn; simp at hNn
  have hcos : dot ray (-N) / (norm ray * norm (-N)) = -(dot ray D.normal) / ray.norm := by
    rw [V3.norm_neg, hpar, dot_smul_right, dot_neg_right]
    have : cn = 1 / N.norm := by field_simp; linarith
    rw [this]; field_simp
  obtain ⟨b1, b2⟩ := cos_bounds ray (-N)
  unfold Detector.intersect
  simp only [hn1, Fl.div_fin_ne hrn.ne', Fl.div_fin_ne (one_ne_zero), Fl.neg_fin, Fl.mul_fin, Fl.add_fin, div_one]
  have e : ray.x / ray.norm * -D.normal.x + ray.y / ray.norm * -D.normal.y + ray.z / ray.norm * -D.normal.z
      = -(dot ray D.normal) / ray.norm := by simp only [V3.dot]; field_simp; ring
  rw [e, ← hcos, Fl.arccos_fin b1 b2]
  rfl

/-! a concrete detector: unit square `x = 1`, sides along `z` and `y`, two by two pixels -/
noncomputable def demoDet : Detector :=
  ⟨⟨1, 0, 0⟩, ⟨1, 1, 0⟩, ⟨1, 0, 1⟩, 1, 1, 1/2, 1/2, ⟨0, 0, 1⟩, ⟨0, 1, 0⟩, ⟨-1, 0, 0⟩, 1, 1/50, 2, true, true, true⟩

theorem demoDet_new : Detector.new ⟨1, 0, 0⟩ ⟨1, 1, 0⟩ ⟨1, 0, 1⟩ (.both 2) .absent 1 (1/50) 2 true true true = .ok demoDet := by
  have e1 : ((⟨1, 0, 1⟩ : V3) - ⟨1, 0, 0⟩) = ⟨0, 0, 1⟩ := by ext <;> simp
  have e2 : ((⟨1, 1, 0⟩ : V3) - ⟨1, 0, 0⟩) = ⟨0, 1, 0⟩ := by ext <;> simp
  have n1 : norm (⟨0, 0, 1⟩ : V3) = 1 := norm_ez
  have n2 : norm (⟨0, 1, 0⟩ : V3) = 1 := by rw [norm_eq_one]; simp [nsq, V3.dot]
  have n3 : norm (⟨-1, 0, 0⟩ : V3) = 1 := by rw [norm_eq_one]; simp [nsq, V3.dot]
  have s1 : ∀ v : V3, (1 / (1:ℝ)) • v = v := by intro v; ext <;> simp
  have c : cross (⟨0, 0, 1⟩ : V3) ⟨0, 1, 0⟩ = ⟨-1, 0, 0⟩ := by ext <;> simp [V3.cross]
  have c0 : (⟨-1, 0, 0⟩ : V3) ≠ 0 := by intro h; have := congrArg V3.x h; simp at this
  unfold Detector.new
  simp only [e1, e2, n1, n2, s1, c, n3, pixelSizes, if_neg c0]
  rw [if_neg (by norm_num)]
  simp [demoDet]

theorem demoDet_orth : dot ((⟨1, 0, 1⟩ : V3) - ⟨1, 0, 0⟩) (⟨1, 1, 0⟩ - ⟨1, 0, 0⟩) = 0 := by simp [V3.dot]

/-- the ray along x from `(0,1/4,1/2)` hits the demo detector there -/
example : (demoDet.intersect ⟨1, 0, 0⟩ ⟨0, 1/4, 1/2⟩).1 = fin (1/2 * norm ((⟨1, 0, 1⟩ : V3) - ⟨1, 0, 0⟩)) :=
  (C21_every_hit_is_found _ _ _ _ _ _ _ _ _ _ _ demoDet demoDet_new demoDet_orth ⟨1, 0, 0⟩ ⟨0, 1/4, 1/2⟩ (1/2) (1/4)
    ⟨by simp [V3.dot, V3.cross], by norm_num, by norm_num, by norm_num, by norm_num, 1, by norm_num, by
      ext <;> simp⟩).1

/-! ### C23 -/

/-- number of `i < m` with `i < y` -/
theorem count_below (y : ℝ) (hy : 0 ≤ y) (m : ℕ) :
    ((List.range m).filter fun i : ℕ => decide ((i : ℝ) < y)).length = min m ⌈y⌉₊ := by
  induction m with
  | zero => simp
  | succ m ih =>
    rw [List.range_succ, List.filter_append, List.length_append, ih]
    by_cases h : (m : ℝ) < y
    · have : m < ⌈y⌉₊ := Nat.lt_ceil.mpr h
      simp [h]; omega
    · have : ⌈y⌉₊ ≤ m := Nat.ceil_le.mpr (not_lt.mp h)
      simp [h]; omega

theorem frameOf_eq {n : ℤ} (hn : 1 < n) {t : ℝ} (h0 : 0 ≤ t) (h1 : t ≤ 1) : frameOf n t = max 0 (⌈t * n⌉ - 1) := by
  unfold frameOf
  rw [if_neg (by omega)]
  simp only [List.filter_map, List.length_map, Function.comp_def]
  have hnR : (0 : ℝ) < (n : ℝ) := by exact_mod_cast (by omega : 0 < n)
  have hc : (fun i : ℕ => decide ((i : ℝ) / (n : ℝ) < t)) = fun i : ℕ => decide ((i : ℝ) < t * n) := by
    funext i; exact decide_eq_decide.mpr (div_lt_iff₀ hnR)
  rw [hc, count_below _ (by positivity)]
  have hle : ⌈t * n⌉₊ ≤ n.toNat := by
    apply Nat.ceil_le.mpr
    have : ((n.toNat : ℕ) : ℝ) = (n : ℝ) := by
      have : ((n.toNat : ℕ) : ℤ) = n := Int.toNat_of_nonneg (by omega)
      exact_mod_cast this
    rw [this]; nlinarith
  have hmin : min (n.toNat + 1) ⌈t * n⌉₊ = ⌈t * n⌉₊ := by omega
  rw [hmin]
  have hcast : ((⌈t * n⌉₊ : ℕ) : ℤ) = ⌈t * n⌉ := Int.natCast_ceil_eq_ceil (by positivity)
  have hle' : ⌈t * n⌉ ≤ n := by rw [← hcast]; omega
  rw [hcast]; congr 1; omega

/-- C23: for every number of frames `n ≥ 1` and time `t ∈ [0,1]` the frame index is an integer in `[0, n)` whose
equal-width bin contains `t` (a time on a bin boundary goes to the earlier frame), and frames do not decrease in time. -/
theorem C23_frame_is_time_bin (n : ℤ) (hn : 1 ≤ n) (t : ℝ) (h0 : 0 ≤ t) (h1 : t ≤ 1) :
    0 ≤ frameOf n t ∧ frameOf n t < n ∧ (frameOf n t : ℝ) / n ≤ t ∧ t ≤ ((frameOf n t : ℝ) + 1) / n ∧
    (0 < t → (frameOf n t : ℝ) / n < t) ∧
    (∀ t', t ≤ t' → t' ≤ 1 → frameOf n t ≤ frameOf n t') := by
  have hnR : (0 : ℝ) < (n : ℝ) := by exact_mod_cast (by omega : 0 < n)
  rcases hn.eq_or_lt with rfl | hn'
  · have : ∀ t, frameOf 1 t = 0 := by intro t; simp [frameOf]
    simp only [this]
    norm_num
    exact ⟨h0, h1⟩
  · have hle : ⌈t * n⌉ ≤ n := by
      apply Int.ceil_le.mpr; nlinarith
    have hc1 := Int.le_ceil (t * n)
    have hc2 := Int.ceil_lt_add_one (t * n)
    have hmono : ∀ t', t ≤ t' → t' ≤ 1 → frameOf n t ≤ frameOf n t' := by
      intro t' h2 h3
      rw [frameOf_eq hn' h0 h1, frameOf_eq hn' (h0.trans h2) h3]
      have : ⌈t * n⌉ ≤ ⌈t' * n⌉ := Int.ceil_le_ceil (by nlinarith)
      omega
    refine ⟨?_, ?_, ?_, ?_, ?_, hmono⟩ <;> rw [frameOf_eq hn' h0 h1]
    · omega
    · omega
    · rw [div_le_iff₀ hnR]
      push_cast
      apply max_le
      · positivity
      · linarith
    · rw [le_div_iff₀ hnR]
      push_cast
      have := le_max_right (0:ℝ) ((⌈t * n⌉ : ℝ) - 1)
      linarith
    · intro hpos
      rw [div_lt_iff₀ hnR]
      push_cast
      apply max_lt
      · positivity
      · linarith

example : frameOf 4 (3/4) = 2 ∧ frameOf 4 0 = 0 ∧ frameOf 4 1 = 3 := by
  refine ⟨?_, ?_, ?_⟩ <;> rw [frameOf_eq (by norm_num) (by norm_num) (by norm_num)] <;> norm_num

/-! ### C56 -/

/-- C56: with `n_pixels = (n_z, n_y)` the frame shape is `n_z` by `n_y` and the pixel sizes divide the sides equally. -/
theorem C56_shape_from_n_pixels (c0 c1 c2 : V3) (nz ny : ℕ) (hz : 0 < nz) (hy : 0 < ny) (sg th : ℝ) (mr : ℤ) (fl fp fs : Bool)
    (D : Detector) (hD : Detector.new c0 c1 c2 (.pair nz ny) .absent sg th mr fl fp fs = .ok D) :
    D.nz = nz ∧ D.ny = ny ∧ D.pz * nz = norm (c2 - c0) ∧ D.py * ny = norm (c1 - c0) := by
  obtain ⟨hok, rfl, rfl, rfl, hps, -⟩ := Detector.new_ok hD
  have h1 := hok.zpos; have h2 := hok.ypos
  simp only [pixelSizes, Except.ok.injEq, Prod.mk.injEq, Int.cast_natCast] at hps
  have hz' : (0 : ℝ) < nz := by exact_mod_cast hz
  have hy' : (0 : ℝ) < ny := by exact_mod_cast hy
  unfold Detector.nz Detector.ny
  rw [← hok.zmax_eq, ← hok.ymax_eq, ← hps.1, ← hps.2]
  have e1 : D.zmax / (D.zmax / nz) = nz := by field_simp
  have e2 : D.ymax / (D.ymax / ny) = ny := by field_simp
  rw [e1, e2]
  refine ⟨Nat.ceil_natCast _, Nat.ceil_natCast _, by field_simp, by field_simp⟩

/-- C56: with pixel sizes given, every pixel origin is on the detector and the pixels cover it. -/
theorem C56_shape_from_pixel_size (c0 c1 c2 : V3) (pz py : ℝ) (sg th : ℝ) (mr : ℤ) (fl fp fs : Bool)
    (D : Detector) (hD : Detector.new c0 c1 c2 .absent (.pair pz py) sg th mr fl fp fs = .ok D) :
    (∀ i : ℕ, i < D.nz ↔ (i : ℝ) * pz < norm (c2 - c0)) ∧ (∀ j : ℕ, j < D.ny ↔ (j : ℝ) * py < norm (c1 - c0)) := by
  obtain ⟨hok, rfl, rfl, rfl, hps, -⟩ := Detector.new_ok hD
  simp only [pixelSizes, Except.ok.injEq, Prod.mk.injEq] at hps
  obtain ⟨rfl, rfl⟩ := hps
  have h1 := hok.pz; have h2 := hok.py
  rw [← hok.zmax_eq, ← hok.ymax_eq]
  unfold Detector.nz Detector.ny
  exact ⟨fun i => by rw [Nat.lt_ceil, lt_div_iff₀ h1], fun j => by rw [Nat.lt_ceil, lt_div_iff₀ h2]⟩

/-- C56: pixel `(i,j)` sits at `det_corner_0 + i pz zdhat + j py ydhat`, `zdhat` and `ydhat` being the unit vectors from
`det_corner_0` to `det_corner_2` and `det_corner_1`. -/
theorem C56_pixel_position (c0 c1 c2 : V3) (np : PixArg ℤ) (ps : PixArg ℝ) (sg th : ℝ) (mr : ℤ) (fl fp fs : Bool)
    (D : Detector) (hD : Detector.new c0 c1 c2 np ps sg th mr fl fp fs = .ok D) (i j : ℕ) :
    D.pixelCoordinate i j = c0 + ((i : ℝ) * D.pz / norm (c2 - c0)) • (c2 - c0) + ((j : ℝ) * D.py / norm (c1 - c0)) • (c1 - c0) := by
  obtain ⟨hok, rfl, rfl, rfl, hps, -⟩ := Detector.new_ok hD
  have h1 := hok.zpos; have h2 := hok.ypos
  rw [← hok.zmax_eq, ← hok.ymax_eq]
  unfold Detector.pixelCoordinate
  rw [hok.zdhat, hok.ydhat]
  ext <;> simp only [V3.add_x, V3.add_y, V3.add_z, V3.smul_x, V3.smul_y, V3.smul_z] <;> field_simp

/-- C56: giving both or neither of `n_pixels` and `pixel_size` is a `ValueError`, whatever the other arguments. -/
theorem C56_both_or_neither_rejected (c0 c1 c2 : V3) (np : PixArg ℤ) (ps : PixArg ℝ) (sg th : ℝ) (mr : ℤ) (fl fp fs : Bool)
    (h : (np = .absent ∧ ps = .absent) ∨ (np ≠ .absent ∧ ps ≠ .absent)) :
    Detector.new c0 c1 c2 np ps sg th mr fl fp fs = .error .valueError := by
  unfold Detector.new
  rcases h with ⟨rfl, rfl⟩ | ⟨h1, h2⟩
  · rfl
  · cases np <;> cases ps <;> first | rfl | exact absurd rfl h1 | exact absurd rfl h2

example : demoDet.nz = 2 := by
  unfold Detector.nz demoDet; norm_num

end XRD
