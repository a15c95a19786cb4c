import Verif.Props.Detector

/-! Property C56, continued: one number for both axes, and which arguments the constructor accepts. -/

namespace XRD
open V3 M3 Fl

/-- C56: one number for `n_pixels` or `pixel_size` means that number for both axes: the constructor does the same as for the pair
with equal entries, on every input. -/
theorem C56_one_number_for_both (c0 c1 c2 : V3) (np : PixArg ℤ) (ps : PixArg ℝ) (n : ℤ) (p : ℝ) (sg th : ℝ) (mr : ℤ) (fl fp fs : Bool) :
    Detector.new c0 c1 c2 (.both n) ps sg th mr fl fp fs = Detector.new c0 c1 c2 (.pair n n) ps sg th mr fl fp fs ∧
    Detector.new c0 c1 c2 np (.both p) sg th mr fl fp fs = Detector.new c0 c1 c2 np (.pair p p) sg th mr fl fp fs := by
  constructor
  · cases ps <;> rfl
  · cases np <;> rfl

/-- C56: with positive pixel counts or sizes and corners that are not on one line, the detector is built; its sides are the
distances between the corners, and the switches and kernel settings are the ones given. -/
theorem C56_accepts (c0 c1 c2 : V3) (nz ny : ℤ) (pz py : ℝ) (sg th : ℝ) (mr : ℤ) (fl fp fs : Bool)
    (hc : cross (c2 - c0) (c1 - c0) ≠ 0) (hnz : 0 < nz) (hny : 0 < ny) (hpz : 0 < pz) (hpy : 0 < py) :
    (∃ D, Detector.new c0 c1 c2 (.pair nz ny) .absent sg th mr fl fp fs = .ok D ∧ D.zmax = (c2 - c0).norm ∧ D.ymax = (c1 - c0).norm ∧
      D.pz = (c2 - c0).norm / nz ∧ D.py = (c1 - c0).norm / ny ∧ D.sigma = sg ∧ D.threshold = th ∧ D.maxRadius = mr ∧
      D.useLorentz = fl ∧ D.usePolarization = fp ∧ D.useStructureFactor = fs) ∧
    (∃ D, Detector.new c0 c1 c2 .absent (.pair pz py) sg th mr fl fp fs = .ok D ∧ D.zmax = (c2 - c0).norm ∧ D.ymax = (c1 - c0).norm ∧
      D.pz = pz ∧ D.py = py ∧ D.sigma = sg ∧ D.threshold = th ∧ D.maxRadius = mr ∧
      D.useLorentz = fl ∧ D.usePolarization = fp ∧ D.useStructureFactor = fs) := by
  have hz0 : c2 - c0 ≠ 0 := by
    intro h; apply hc; rw [h]; ext <;> simp [cross]
  have hy0 : c1 - c0 ≠ 0 := by
    intro h; apply hc; rw [h]; ext <;> simp [cross]
  have hz : 0 < (c2 - c0).norm := V3.norm_pos.2 hz0
  have hy : 0 < (c1 - c0).norm := V3.norm_pos.2 hy0
  have hn : cross ((1 / (c2 - c0).norm) • (c2 - c0)) ((1 / (c1 - c0).norm) • (c1 - c0)) ≠ 0 := by
    intro h
    apply hc
    have h1 := congrArg V3.x h
    have h2 := congrArg V3.y h
    have h3 := congrArg V3.z h
    simp only [cross, V3.smul_x, V3.smul_y, V3.smul_z, V3.zero_x, V3.zero_y, V3.zero_z] at h1 h2 h3
    field_simp at h1 h2 h3
    ext <;> simp only [cross, V3.zero_x, V3.zero_y, V3.zero_z] <;> linarith
  have a1 : ¬ ((c2 - c0).norm / (nz : ℝ) ≤ 0 ∨ (c1 - c0).norm / (ny : ℝ) ≤ 0) := by
    have q1 : (0 : ℝ) < nz := by exact_mod_cast hnz
    have q2 : (0 : ℝ) < ny := by exact_mod_cast hny
    rintro (h | h)
    · exact absurd (div_pos hz q1) (not_lt.2 h)
    · exact absurd (div_pos hy q2) (not_lt.2 h)
  have a2 : ¬ (pz ≤ 0 ∨ py ≤ 0) := by
    rintro (h | h) <;> linarith
  constructor
  · refine ⟨_, by simp only [Detector.new, pixelSizes, if_neg hn, if_neg a1]; rfl, rfl, rfl, rfl, rfl, rfl, rfl, rfl, rfl, rfl, rfl⟩
  · refine ⟨_, by simp only [Detector.new, pixelSizes, if_neg hn, if_neg a2]; rfl, rfl, rfl, rfl, rfl, rfl, rfl, rfl, rfl, rfl, rfl⟩

/-- non-vacuity: the unit square -/
example : cross ((⟨1, 0, 1⟩ : V3) - ⟨1, 0, 0⟩) ((⟨1, 1, 0⟩ : V3) - ⟨1, 0, 0⟩) ≠ 0 := by
  intro h
  have := congrArg V3.x h
  simp [cross] at this

end XRD
