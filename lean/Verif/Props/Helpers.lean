import Verif.Model.Helpers
import Verif.Props.Detector2
import Verif.Props.Limits
import Verif.Props.ImgScene

/-! Property C76: the single-ray helpers agree with the functions the simulation uses. -/

namespace XRD
open V3 M3 Fl Spec
open Classical

theorem rayPoint_some {D : Detector} {o u P : V3} (h : D.rayPoint o u = some P) :
    u.dot D.normal ≠ 0 ∧ 0 ≤ D.sOf u o ∧ P = o + D.sOf u o • u ∧ 1 / 10 ^ 10 ≤ |u.dot D.normal| := by
  unfold Detector.rayPoint at h
  dsimp only at h
  split_ifs at h with h1 h2
  refine ⟨?_, not_lt.1 h2, (Option.some.inj h).symm, not_lt.1 h1⟩
  intro h0
  rw [h0, abs_zero] at h1
  norm_num at h1

/-- C76: the point returned by the single-ray helper is where the forward ray meets the detector plane, and its coordinates
along the detector axes are those `get_intersection` returns for the ray. -/
theorem C76_ray_point_sound (c0 c1 c2 : V3) (np : PixArg ℤ) (ps : PixArg ℝ) (sg th : ℝ) (mr : ℤ) (fl fp fs : Bool) (D : Detector)
    (hD : Detector.new c0 c1 c2 np ps sg th mr fl fp fs = .ok D) (o u P : V3) (h : D.rayPoint o u = some P) :
    (∃ t : ℝ, 0 ≤ t ∧ P = o + t • u) ∧ dot (P - c0) (cross (c2 - c0) (c1 - c0)) = 0 ∧
      (D.intersect u o).1 = fin (dot (P - c0) ((1 / norm (c2 - c0)) • (c2 - c0))) ∧
      (D.intersect u o).2.1 = fin (dot (P - c0) ((1 / norm (c1 - c0)) • (c1 - c0))) := by
  obtain ⟨hok, rfl, rfl, rfl, -⟩ := Detector.new_ok hD
  obtain ⟨h1, h2, rfl, -⟩ := rayPoint_some h
  obtain ⟨v1, v2⟩ := Detector.intersect_val h1 h2
  refine ⟨⟨_, h2, rfl⟩, ?_, ?_, ?_⟩
  · obtain ⟨cn, hcn, hpar⟩ := hok.normal_parallel
    have := Detector.sOf_plane (src := o) h1
    rw [hpar, dot_smul_right] at this
    exact (mul_eq_zero.1 this).resolve_left hcn.ne'
  · rw [v1, hok.zdhat, hok.zmax_eq]
  · rw [v2, hok.ydhat, hok.ymax_eq]

/-- C76, converse: a forward ray that meets the detector plane is found, unless it is within `1e-10` of parallel to it; and
then `get_intersection` has no coordinates for it when the helper returns `None`. -/
theorem C76_ray_point_complete (c0 c1 c2 : V3) (np : PixArg ℤ) (ps : PixArg ℝ) (sg th : ℝ) (mr : ℤ) (fl fp fs : Bool) (D : Detector)
    (hD : Detector.new c0 c1 c2 np ps sg th mr fl fp fs = .ok D) (o u : V3)
    (hu : 1 / 10 ^ 10 * norm (cross (c2 - c0) (c1 - c0)) ≤ |dot u (cross (c2 - c0) (c1 - c0))|) :
    (∀ t : ℝ, 0 ≤ t → dot (o + t • u - c0) (cross (c2 - c0) (c1 - c0)) = 0 → D.rayPoint o u = some (o + t • u)) ∧
    (D.rayPoint o u = none → ¬ IsFinite (D.intersect u o).1) := by
  obtain ⟨hok, rfl, rfl, rfl, -⟩ := Detector.new_ok hD
  obtain ⟨cn, hcn, hpar⟩ := hok.normal_parallel
  set N := cross (D.c2 - D.c0) (D.c1 - D.c0) with hN
  have hun : norm D.normal = 1 := by rw [hok.normal]; exact norm_eq_one.2 (nsq_unit hok.ncross)
  have hcN : cn * norm N = 1 := by
    rw [hpar, V3.norm_smul, abs_of_pos hcn] at hun; exact hun
  have hd : 1 / 10 ^ 10 ≤ |u.dot D.normal| := by
    rw [hpar, dot_smul_right, abs_mul, abs_of_pos hcn]
    calc (1 : ℝ) / 10 ^ 10 = cn * (1 / 10 ^ 10 * norm N) := by
          rw [show cn * (1 / 10 ^ 10 * norm N) = 1 / 10 ^ 10 * (cn * norm N) by ring, hcN, _root_.mul_one]
      _ ≤ _ := mul_le_mul_of_nonneg_left hu hcn.le
  have hd0 : u.dot D.normal ≠ 0 := by
    intro h0; rw [h0, abs_zero] at hd; norm_num at hd
  constructor
  · intro t ht h
    have hs : D.sOf u o = t := by
      have h' : dot (o + t • u - D.c0) D.normal = 0 := by rw [hpar, dot_smul_right, h, mul_zero]
      unfold Detector.sOf
      rw [div_eq_iff hd0]
      rw [dot_sub_left, dot_add_left, dot_smul_left] at h'
      rw [dot_sub_left]; linarith
    unfold Detector.rayPoint
    dsimp only
    rw [if_neg (not_lt.2 hd)]
    have : (D.c0 - o).dot D.normal / u.dot D.normal = t := hs
    rw [this, if_neg (not_lt.2 ht)]
  · intro h hf
    obtain ⟨-, h2⟩ := Detector.intersect_finite hf
    unfold Detector.rayPoint at h
    dsimp only at h
    rw [if_neg (not_lt.2 hd), if_neg] at h
    · cases h
    · exact not_lt.2 h2

/-- C76: pixel coordinates.  If the two helpers in a row give `(z, y)`, then `get_intersection` gives, for the same ray, the
coordinates `z · pixel_size_z` and `y · pixel_size_y`, and `(⌊z⌋, ⌊y⌋)` is a pixel of the frame: the one the renderer uses. -/
theorem C76_pixel_coords_sound (c0 c1 c2 : V3) (np : PixArg ℤ) (ps : PixArg ℝ) (sg th : ℝ) (mr : ℤ) (fl fp fs : Bool) (D : Detector)
    (hD : Detector.new c0 c1 c2 np ps sg th mr fl fp fs = .ok D) (o u P : V3) (h : D.rayPoint o u = some P) (z y : ℝ)
    (hp : D.worldToPixel P = some (z, y)) :
    (D.intersect u o).1 = fin (z * D.pz) ∧ (D.intersect u o).2.1 = fin (y * D.py) ∧
      D.pixelIndex (z * D.pz) (y * D.py) = (⌊z⌋, ⌊y⌋) ∧ 0 ≤ ⌊z⌋ ∧ ⌊z⌋ < (D.nz : ℤ) ∧ 0 ≤ ⌊y⌋ ∧ ⌊y⌋ < (D.ny : ℤ) := by
  obtain ⟨hok, rfl, rfl, rfl, -⟩ := Detector.new_ok hD
  obtain ⟨h1, h2, rfl, -⟩ := rayPoint_some h
  obtain ⟨v1, v2⟩ := Detector.intersect_val h1 h2
  have hz := hok.pz; have hy := hok.py
  unfold Detector.worldToPixel at hp
  dsimp only at hp
  split_ifs at hp with hc
  push Not at hc
  obtain ⟨c1, c2, c3, c4⟩ := hc
  simp only [Option.some.injEq, Prod.mk.injEq] at hp
  obtain ⟨rfl, rfl⟩ := hp
  refine ⟨?_, ?_, ?_, Int.floor_nonneg.2 c1, Int.floor_lt.2 (by exact_mod_cast c2), Int.floor_nonneg.2 c3,
    Int.floor_lt.2 (by exact_mod_cast c4)⟩
  · rw [v1, div_mul_cancel₀ _ hz.ne']
  · rw [v2, div_mul_cancel₀ _ hy.ne']
  · unfold Detector.pixelIndex Detector.pyInt
    rw [mul_div_cancel_right₀ _ hz.ne', mul_div_cancel_right₀ _ hy.ne', if_pos c1, if_pos c3]

/-- C76, converse: a hit that `get_intersection` places on the detector, and not on its far edges, is found by the helpers,
with the same coordinates, unless the ray is within `1e-10` of parallel to the detector. -/
theorem C76_pixel_coords_complete (c0 c1 c2 : V3) (np : PixArg ℤ) (ps : PixArg ℝ) (sg th : ℝ) (mr : ℤ) (fl fp fs : Bool)
    (D : Detector) (hD : Detector.new c0 c1 c2 np ps sg th mr fl fp fs = .ok D) (o u : V3)
    (hu : 1 / 10 ^ 10 * norm (cross (c2 - c0) (c1 - c0)) ≤ |dot u (cross (c2 - c0) (c1 - c0))|) (zd yd : ℝ)
    (h1 : (D.intersect u o).1 = fin zd) (h2 : (D.intersect u o).2.1 = fin yd) (hz0 : 0 ≤ zd) (hz : zd < norm (c2 - c0))
    (hy0 : 0 ≤ yd) (hy : yd < norm (c1 - c0)) :
    ∃ P, D.rayPoint o u = some P ∧ D.worldToPixel P = some (zd / D.pz, yd / D.py) := by
  have hcomp := (C76_ray_point_complete c0 c1 c2 np ps sg th mr fl fp fs D hD o u hu).2
  have hsound := C76_ray_point_sound c0 c1 c2 np ps sg th mr fl fp fs D hD o u
  obtain ⟨hok, rfl, rfl, rfl, -⟩ := Detector.new_ok hD
  have hpz := hok.pz; have hpy := hok.py
  cases hr : D.rayPoint o u with
  | none => exact absurd (by rw [h1]; trivial) (hcomp hr)
  | some P =>
    refine ⟨P, rfl, ?_⟩
    obtain ⟨-, -, e1, e2⟩ := hsound P hr
    rw [h1, ← hok.zmax_eq, ← hok.zdhat] at e1
    rw [h2, ← hok.ymax_eq, ← hok.ydhat] at e2
    obtain rfl := Fl.fin.inj e1
    obtain rfl := Fl.fin.inj e2
    unfold Detector.worldToPixel
    dsimp only
    rw [if_neg]
    rintro (h | h | h | h)
    · exact absurd (div_nonneg hz0 hpz.le) (not_le.2 h)
    · have hn : D.zmax / D.pz ≤ D.nz := Nat.le_ceil _
      have := (div_lt_div_iff_of_pos_right hpz).2 (hok.zmax_eq ▸ hz)
      linarith
    · exact absurd (div_nonneg hy0 hpy.le) (not_le.2 h)
    · have hn : D.ymax / D.py ≤ D.ny := Nat.le_ceil _
      have := (div_lt_div_iff_of_pos_right hpy).2 (hok.ymax_eq ▸ hy)
      linarith

/-- C76: the Bragg angle helper agrees with the peaks table: for every reported peak, applied to the recorded sample
vector `G0` and the wavelength of the beam it gives half the recorded `2theta`; and the other helper gives its sine. -/
theorem C76_bragg_angle (q : Qhull) (vs : List V3) (dir pol : V3) (wl : ℝ) (b : Beam)
    (hb : Beam.new q vs dir wl pol = .ok b) (hwl : 0 < wl) (c : Crystal) (a T o : V3) (w : ℝ) (m : Motion) (d : PeaksDict)
    (hm : Motion.new a w T o = .ok m) (ha : norm a = 1) (hc : ∀ ph ∈ c.phases, ph.Consistent)
    (hd : diffractCore c b m = .ok d) (row : List Fl) (hrow : row ∈ d.peaks) :
    ∃ (tt : ℝ) (G0 : V3), Has d.columns row "2theta" (fin tt) ∧ HasV d.columns row "G0_x" "G0_y" "G0_z" G0 ∧
      braggAngle G0 wl = fin (tt / 2) ∧ sinThetaAndNorm G0 wl = (Real.sin (tt / 2), norm G0) := by
  obtain ⟨tt, G0, h1, h2, h3, h4, h5⟩ := C04_two_theta_obeys_bragg q vs dir pol wl b hb hwl c a T o w m d hm ha hc hd row hrow
  refine ⟨tt, G0, h1, h2, ?_, ?_⟩
  · unfold braggAngle Fl.arcsin
    rw [← h5]
    dsimp only
    rw [if_pos ⟨Real.neg_one_le_sin _, Real.sin_le_one _⟩, Real.arcsin_sin (by linarith [Real.pi_pos]) (by linarith)]
  · unfold sinThetaAndNorm; rw [h5]

/-- C76: for every vector the Bragg angle helper returns the angle in `[0, π/2]` whose sine is `|G| λ / 4π` if there is one, and NaN
otherwise. -/
theorem C76_bragg_angle_domain (G : V3) (wl : ℝ) (hwl : 0 < wl) :
    (∀ θ : ℝ, braggAngle G wl = fin θ ↔ 0 ≤ θ ∧ θ ≤ Real.pi / 2 ∧ 4 * Real.pi * Real.sin θ = norm G * wl) ∧
    (braggAngle G wl = nan ↔ 4 * Real.pi < norm G * wl) := by
  have hpi := Real.pi_pos
  have hG : 0 ≤ norm G := V3.norm_nonneg G
  have h0 : 0 ≤ norm G * wl / (4 * Real.pi) := by positivity
  unfold braggAngle Fl.arcsin
  dsimp only
  by_cases h1 : norm G * wl / (4 * Real.pi) ≤ 1
  · have hle : norm G * wl ≤ 4 * Real.pi := by rwa [div_le_one (by positivity)] at h1
    rw [if_pos ⟨by linarith, h1⟩]
    refine ⟨fun θ => ?_, ?_⟩
    · rw [Fl.fin.injEq]
      constructor
      · rintro rfl
        refine ⟨Real.arcsin_nonneg.mpr h0, Real.arcsin_le_pi_div_two _, ?_⟩
        rw [Real.sin_arcsin (by linarith) h1]; field_simp
      · rintro ⟨a, b, e⟩
        have : norm G * wl / (4 * Real.pi) = Real.sin θ := by rw [← e]; field_simp
        rw [this, Real.arcsin_sin (by linarith) b]
    · constructor
      · intro h; cases h
      · intro h; linarith
  · have hlt : 4 * Real.pi < norm G * wl := by
      rw [not_le, one_lt_div (by positivity)] at h1; exact h1
    rw [if_neg (fun h => h1 h.2)]
    refine ⟨fun θ => ⟨fun h => (by cases h), fun ⟨_, _, e⟩ => ?_⟩, fun _ => hlt, fun _ => rfl⟩
    nlinarith [Real.sin_le_one θ]

/-- C76 is false for the path length helper: whatever the detector, the ray and the hull, the call raises (unless Qhull
already fails on the hull's points, when it returns zero): no path length is ever returned.  The direction is passed to the
clipping routine with an extra axis. -/
theorem C76_path_length_fails (qhull : List V3 → Option (List HalfSpace)) (points : List V3) (p u : V3) :
    (Detector.pixelPathLength qhull points p u = .error .runtimeError ↔ (qhull points).isSome) ∧
    ∀ l, Detector.pixelPathLength qhull points p u = .ok l ↔ qhull points = none ∧ l = 0 := by
  unfold Detector.pixelPathLength
  cases h : qhull points with
  | none => simp [eq_comm]
  | some eqs => simp [Detector.matmulShape]

/-- the unit cube and a ray through its middle: the clipped length is 2, the helper raises -/
example : Detector.clipLength [⟨⟨1, 0, 0⟩, -1⟩, ⟨⟨-1, 0, 0⟩, -1⟩, ⟨⟨0, 1, 0⟩, -1⟩, ⟨⟨0, -1, 0⟩, -1⟩, ⟨⟨0, 0, 1⟩, -1⟩, ⟨⟨0, 0, -1⟩, -1⟩]
      ⟨5, 0, 0⟩ ⟨1, 0, 0⟩ = 2 ∧
    Detector.pixelPathLength (fun _ => some [⟨⟨1, 0, 0⟩, -1⟩, ⟨⟨-1, 0, 0⟩, -1⟩, ⟨⟨0, 1, 0⟩, -1⟩, ⟨⟨0, -1, 0⟩, -1⟩, ⟨⟨0, 0, 1⟩, -1⟩,
      ⟨⟨0, 0, -1⟩, -1⟩]) [] ⟨5, 0, 0⟩ ⟨1, 0, 0⟩ = .error .runtimeError := by
  constructor
  · simp [Detector.clipLength, Detector.planeTimes, V3.dot, Detector.minL, Detector.maxL]
    norm_num
  · rfl

/-- the helpers on the demonstration detector: the ray along x from the origin hits pixel (50, 50) -/
example : ∃ P, (imgDet 2 1 (1 / 10)).rayPoint 0 ⟨1, 0, 0⟩ = some P ∧ (imgDet 2 1 (1 / 10)).worldToPixel P = some (50, 50) := by
  have hn : norm (⟨0, 0, 200⟩ : V3) = 200 := by
    unfold V3.norm; rw [show nsq (⟨0, 0, 200⟩ : V3) = 200 ^ 2 by norm_num [nsq, V3.dot], Real.sqrt_sq (by norm_num)]
  have hn' : norm (⟨0, 200, 0⟩ : V3) = 200 := by
    unfold V3.norm; rw [show nsq (⟨0, 200, 0⟩ : V3) = 200 ^ 2 by norm_num [nsq, V3.dot], Real.sqrt_sq (by norm_num)]
  have e1 : ((⟨100, -100, 100⟩ : V3) - ⟨100, -100, -100⟩) = ⟨0, 0, 200⟩ := by ext <;> simp; norm_num
  have e2 : ((⟨100, 100, -100⟩ : V3) - ⟨100, -100, -100⟩) = ⟨0, 200, 0⟩ := by ext <;> simp; norm_num
  have hx : cross (⟨0, 0, 200⟩ : V3) ⟨0, 200, 0⟩ = ⟨-40000, 0, 0⟩ := by ext <;> norm_num [cross]
  have hnx : norm (⟨-40000, 0, 0⟩ : V3) = 40000 := by
    unfold V3.norm; rw [show nsq (⟨-40000, 0, 0⟩ : V3) = 40000 ^ 2 by norm_num [nsq, V3.dot], Real.sqrt_sq (by norm_num)]
  obtain ⟨P, h1, h2⟩ := C76_pixel_coords_complete _ _ _ _ _ _ _ _ _ _ _ _ (imgDet_new 2 1 (1 / 10) (by norm_num)) 0 ⟨1, 0, 0⟩
    (by rw [e1, e2, hx, hnx]; norm_num [V3.dot]) 100 100
    (by rw [show (0 : V3) = ⟨0, 0, 0⟩ from rfl, imgDet_intersect]; norm_num) (by rw [show (0 : V3) = ⟨0, 0, 0⟩ from rfl, imgDet_intersect]; norm_num)
    (by norm_num) (by rw [e1, hn]; norm_num) (by norm_num) (by rw [e2, hn']; norm_num)
  refine ⟨P, h1, ?_⟩
  rw [h2]
  norm_num [imgDet]

end XRD
