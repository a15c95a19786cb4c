import Verif.Props.BeamHull

/-! Properties C88 and C89: what of the beam direction and the polarisation vector the simulation uses. -/

namespace XRD.Spec
open XRD V3

/-- the beam with its polarisation vector reversed -/
def flipped (b : Beam) : Beam := { b with polarization := -b.polarization }

/-- the same output of `diffract` apart from the beam it refers to -/
def withBeam (d : PeaksDict) (b : Beam) : PeaksDict := { d with beam := b }

/-- `pol` is orthogonal to `dir` up to the tolerance `tol` on the cosine of their angle -/
def OrthogonalUpTo (tol : ℝ) (dir pol : V3) : Prop := |pol.dot dir| ≤ tol * (pol.norm * dir.norm)
end XRD.Spec

namespace XRD
open V3 M3 Fl Spec
open scoped Classical

theorem smul_ne_zero_iff' {c : ℝ} (hc : 0 < c) (v : V3) : c • v = 0 ↔ v = 0 := by
  constructor
  · intro h
    have : (1 / c) • (c • v) = v := by ext <;> simp <;> field_simp
    rw [← this, h]; ext <;> simp
  · rintro rfl; ext <;> simp

theorem unit_smul {c : ℝ} (hc : 0 < c) (v : V3) : (1 / (c • v).norm) • (c • v) = (1 / v.norm) • v := by
  have hn : (c • v).norm = c * v.norm := by
    have : nsq (c • v) = c ^ 2 * nsq v := by simp only [nsq, V3.dot, V3.smul_x, V3.smul_y, V3.smul_z]; ring
    unfold V3.norm
    rw [this, Real.sqrt_mul (by positivity), Real.sqrt_sq hc.le]
  rw [hn]
  by_cases h0 : v.norm = 0
  · have : v = 0 := V3.norm_eq_zero.mp h0
    subst this
    ext <;> simp
  · ext <;> simp <;> field_simp

theorem norm_neg' (v : V3) : (-v).norm = v.norm := by
  unfold V3.norm nsq V3.dot; congr 1; simp

/-- **C88** Only the direction of the propagation vector and of the polarisation vector matter: multiplying either by a positive
number gives exactly the same beam object, or exactly the same error. -/
theorem C88_lengths_do_not_matter (q : Qhull) (vs : List V3) (dir pol : V3) (wl c s : ℝ) (hc : 0 < c) (hs : 0 < s) :
    Beam.new q vs (c • dir) wl (s • pol) = Beam.new q vs dir wl pol := by
  unfold Beam.new
  simp only [unit_smul hc, unit_smul hs, smul_ne_zero_iff' hc, smul_ne_zero_iff' hs]

/-- **C88** Reversing the polarisation vector is accepted in exactly the same cases, and changes nothing else in the beam. -/
theorem C88_reversed_polarization (q : Qhull) (vs : List V3) (dir pol : V3) (wl : ℝ) :
    Beam.new q vs dir wl (-pol) = (Beam.new q vs dir wl pol).map flipped := by
  unfold Beam.new
  have e : (1 / (-pol).norm) • (-pol) = -((1 / pol.norm) • pol) := by rw [norm_neg']; ext <;> simp
  have z : -pol = 0 ↔ pol = 0 := by
    constructor
    · intro h
      have : pol = -(-pol) := by ext <;> simp
      rw [this, h]; ext <;> simp
    · rintro rfl; ext <;> simp
  have d : ∀ p w : V3, dot (-p) w = -dot p w := by
    intro p w; simp only [V3.dot, V3.neg_x, V3.neg_y, V3.neg_z]; ring
  have a : ∀ r : ℝ, allclose (-r) 0 ↔ allclose r 0 := by
    intro r; unfold allclose; rw [show (-r - 0 : ℝ) = -(r - 0) by ring, abs_neg]
  simp only [e, z, d, a]
  split_ifs <;> simp [Except.map, flipped]

/-- the polarisation factor is even in the polarisation vector -/
theorem polarization_neg (K p : V3) : polarization K (-p) = polarization K p := by
  unfold polarization
  dsimp only
  rw [unit_dot, unit_dot]
  by_cases hK : K = 0
  · simp [hK]
  · have e : K.dot (-p) = -(K.dot p) := by simp only [V3.dot, V3.neg_x, V3.neg_y, V3.neg_z]; ring
    simp only [if_neg hK, e, mul_fin, sub_fin]
    congr 1; ring

theorem allPhaseRows_flipped (c : Crystal) (b : Beam) (m : Motion) : allPhaseRows c (flipped b) m = allPhaseRows c b m := rfl

theorem extendRow_flipped (c : Crystal) (b : Beam) (m : Motion) (r : List ℝ) : extendRow c (flipped b) m r = extendRow c b m r := by
  unfold extendRow flipped
  dsimp only
  rw [polarization_neg]

theorem computePeaks_flipped (c : Crystal) (b : Beam) (m : Motion) : computePeaks c (flipped b) m = computePeaks c b m := by
  have e : extendRow c (flipped b) m = extendRow c b m := funext fun r => extendRow_flipped c b m r
  unfold computePeaks
  rw [allPhaseRows_flipped, e]

theorem diffractCore_flipped (c : Crystal) (b : Beam) (m : Motion) :
    diffractCore c (flipped b) m = (diffractCore c b m).map fun d => withBeam d (flipped b) := by
  unfold diffractCore
  rw [computePeaks_flipped]
  cases computePeaks c b m <;> rfl

/-- **C88** Diffracting with the reversed polarisation vector gives, for every polycrystal, motion, Bragg bounds and detector, the same
error or exactly the same peak table (every column of every row, in the same order), and the same polycrystal. -/
theorem C88_diffract_same_peaks (x : Xfab) (p : Polycrystal) (b : Beam) (m : Motion) (lo hi : ℝ) (det : Option Detector) :
    p.diffract x (flipped b) m lo hi det = (p.diffract x b m lo hi det).map fun o => (withBeam o.1 (flipped b), o.2) := by
  have hl : p.limits (flipped b) lo hi det = p.limits b lo hi det := by cases det <;> rfl
  unfold Polycrystal.diffract
  rw [hl]
  cases p.limits b lo hi det with
  | error e => rfl
  | ok l =>
    dsimp only
    rw [diffractCore_flipped]
    show (match (diffractCore (p.setupPhases x b.wavelength l.1 l.2).crystal b m).map (fun d => withBeam d (flipped b)) with
      | .error e => Except.error e
      | .ok d => .ok (d, p.setupPhases x b.wavelength l.1 l.2)) = _
    cases diffractCore (p.setupPhases x b.wavelength l.1 l.2).crystal b m <;> rfl

/-- **C88** and every rendering of the two dictionaries is the same image: for every method, with the intersection of the beam with
a tetrahedron depending on the half-spaces of the beam only (`Beam._intersect` reads nothing else). -/
theorem C88_render_same_image (D : Detector) (env : RenderEnv) (henv : ∀ b b' : Beam, b.halfspaces = b'.halfspaces → env.hull b = env.hull b')
    (d : PeaksDict) (mesh : TetraMesh) (n : ℤ) (method : Detector.Method) (ml : Option ℝ) (mi : ℝ) :
    D.render env (withBeam d (flipped d.beam)) mesh n method ml mi =
      (D.render env d mesh n method ml mi).map fun o => (o.1, withBeam o.2 (flipped d.beam)) := by
  have hh : env.hull (flipped d.beam) = env.hull d.beam := henv _ _ rfl
  have hp : ∀ (mesh : TetraMesh) (m : Motion) (r : List Fl) (t : Option Frame),
      D.macroPeak env (flipped d.beam) mesh m r t = D.macroPeak env d.beam mesh m r t := by
    intro mesh m r t; unfold Detector.macroPeak; rw [hh]
  have hps : ∀ (mesh : TetraMesh) (m : Motion) (rs : List (List Fl)) (t : Option Frame),
      D.macroPeaks env (flipped d.beam) mesh m t rs = D.macroPeaks env d.beam mesh m t rs := by
    intro mesh m rs
    induction rs with
    | nil => intro t; rfl
    | cons r rs ih =>
      intro t
      unfold Detector.macroPeaks
      rw [hp]
      cases D.macroPeak env d.beam mesh m r t with
      | error e => rfl
      | ok t' => exact ih t'
  have hf : ∀ (mesh : TetraMesh) (m : Motion) (rs : List (List Fl)) (fs : List ℕ),
      D.macroFrames env (flipped d.beam) mesh m rs fs = D.macroFrames env d.beam mesh m rs fs := by
    intro mesh m rs fs
    induction fs with
    | nil => rfl
    | cons f fs ih => unfold Detector.macroFrames; rw [hps, ih]
  have hm : ∀ (rs : List (List Fl)) (k : ℕ),
      D.renderMacro env (flipped d.beam) mesh d.motion rs k = D.renderMacro env d.beam mesh d.motion rs k := by
    intro rs k; unfold Detector.renderMacro; rw [hf]
  have hpi : ∀ k : ℤ, D.peaksIntersection (withBeam d (flipped d.beam)) k = withBeam (D.peaksIntersection d k) (flipped d.beam) :=
    fun k => rfl
  have f1 : (withBeam d (flipped d.beam)).beam = flipped d.beam := rfl
  have f2 : (withBeam d (flipped d.beam)).motion = d.motion := rfl
  have f3 : ∀ k : ℤ, (withBeam (D.peaksIntersection d k) (flipped d.beam)).peaks = (D.peaksIntersection d k).peaks := fun _ => rfl
  unfold Detector.render
  dsimp only
  rw [hpi, f1, f2, f3]
  cases method with
  | «macro» =>
    dsimp only
    rw [hm]
    cases D.renderMacro env d.beam mesh d.motion (D.peaksIntersection d (if n < 1 then 1 else n)).peaks (if n < 1 then 1 else n).toNat <;> rfl
  | micro =>
    dsimp only
    cases D.renderMicro env.freeGb (D.peaksIntersection d (if n < 1 then 1 else n)).peaks (if n < 1 then 1 else n).toNat <;> rfl
  | nano =>
    dsimp only
    cases D.renderNano env (D.peaksIntersection d (if n < 1 then 1 else n)).peaks (if n < 1 then 1 else n).toNat <;> rfl
  | other => rfl
  | auto =>
    dsimp only
    rw [hm]
    cases D.renderMacro env d.beam mesh d.motion _ (if n < 1 then 1 else n).toNat with
    | error e => rfl
    | ok a =>
      dsimp only
      cases D.renderMicro env.freeGb _ (if n < 1 then 1 else n).toNat with
      | error e => rfl
      | ok b =>
        dsimp only
        cases D.renderNano env _ (if n < 1 then 1 else n).toNat <;> rfl

/-- the demonstration beam with another polarisation: the hypotheses of C88 are met, with a diffracted peak -/
example : (∃ d p', scenePoly.diffract sceneX (flipped demoBeam) demoZ 0 (Real.pi / 2) none = .ok (d, p') ∧ d.peaks ≠ []) ∧
    (flipped demoBeam).polarization ≠ demoBeam.polarization := by
  obtain ⟨d, p', hd, -, row, hrow, -⟩ := scene_diffract none 0 (Real.pi / 2) 0 (Real.pi / 2) rfl (by rw [Real.sin_zero]; positivity)
    (by rw [Real.sin_pi_div_two]; have := Real.sqrt_two_lt_three_halves; linarith)
  refine ⟨⟨withBeam d (flipped demoBeam), p', ?_, fun h => ?_⟩, fun h => ?_⟩
  · rw [C88_diffract_same_peaks, hd]; rfl
  · have : d.peaks = [] := h
    rw [this] at hrow; simp at hrow
  · have := congrArg V3.z h
    simp [flipped, demoBeam] at this
    try linarith

/-! ### C89 -/

/-- **C89** A beam is accepted exactly if its wavelength is not zero, its vertices are the extreme points of their hull, neither vector
is zero, and the cosine of the angle between the vectors is at most `1e-8 |wavelength| / 2 pi`. -/
theorem C89_accepted_iff_partial (q : Qhull) (vs : List V3) (dir pol : V3) (wl : ℝ) :
    (∃ b, Beam.new q vs dir wl pol = .ok b) ↔ wl ≠ 0 ∧ q.extremeCount vs = vs.length ∧ dir ≠ 0 ∧ pol ≠ 0 ∧
      OrthogonalUpTo (1 / 10 ^ 8 * |wl| / (2 * Real.pi)) dir pol := by
  by_cases h1 : wl = 0
  · simp [Beam.new, h1]
  by_cases h2 : q.extremeCount vs = vs.length
  swap
  · simp [Beam.new, h1, h2]
  by_cases h3 : dir = 0
  · simp [Beam.new, h1, h2, h3]
  by_cases h4 : pol = 0
  · simp [Beam.new, h1, h2, h4]
  have hd : 0 < dir.norm := lt_of_le_of_ne (Real.sqrt_nonneg _) fun h => h3 (V3.norm_eq_zero.mp h.symm)
  have hp : 0 < pol.norm := lt_of_le_of_ne (Real.sqrt_nonneg _) fun h => h4 (V3.norm_eq_zero.mp h.symm)
  have hw : 0 < |wl| := abs_pos.mpr h1
  have hpi := Real.pi_pos
  have e : dot ((1 / pol.norm) • pol) ((2 * Real.pi / wl) • ((1 / dir.norm) • dir)) =
      2 * Real.pi * pol.dot dir / (wl * (pol.norm * dir.norm)) := by
    simp only [V3.dot, V3.smul_x, V3.smul_y, V3.smul_z]; field_simp
  have key : allclose (dot ((1 / pol.norm) • pol) ((2 * Real.pi / wl) • ((1 / dir.norm) • dir))) 0 ↔
      OrthogonalUpTo (1 / 10 ^ 8 * |wl| / (2 * Real.pi)) dir pol := by
    rw [e]
    unfold allclose OrthogonalUpTo
    rw [sub_zero, abs_zero, MulZeroClass.mul_zero, add_zero, abs_div, abs_mul, abs_mul wl, abs_of_pos (by positivity : 0 < 2 * Real.pi),
      abs_of_pos (by positivity : 0 < pol.norm * dir.norm), div_le_iff₀ (by positivity)]
    constructor
    · intro h
      rw [div_mul_eq_mul_div, le_div_iff₀ (by positivity)]
      nlinarith
    · intro h
      rw [div_mul_eq_mul_div, le_div_iff₀ (by positivity)] at h
      nlinarith
  unfold Beam.new
  dsimp only
  rw [if_neg h1, if_neg (by simpa using h2), if_neg (by simp [h3, h4])]
  by_cases h5 : OrthogonalUpTo (1 / 10 ^ 8 * |wl| / (2 * Real.pi)) dir pol
  · rw [if_pos (key.mpr h5)]
    exact ⟨fun _ => ⟨h1, h2, h3, h4, h5⟩, fun _ => ⟨_, rfl⟩⟩
  · rw [if_neg (fun h => h5 (key.mp h))]
    exact ⟨fun ⟨b, hb⟩ => by simp at hb, fun h => absurd h.2.2.2.2 h5⟩

/-- the demonstration beam is accepted: a case of the right-hand side -/
example : OrthogonalUpTo (1 / 10 ^ 8 * |2 * Real.pi| / (2 * Real.pi)) ⟨1, 0, 0⟩ ⟨0, 0, 1⟩ :=
  ((C89_accepted_iff_partial ⟨List.length, fun _ => cubeFacets⟩ cubeVertices ⟨1, 0, 0⟩ ⟨0, 0, 1⟩ (2 * Real.pi)).mp ⟨_, demoBeam_new⟩).2.2.2.2

/-- **C89** fails: the tolerance is on the angle times the wave number, so it depends on the unit of the wavelength.  Whatever
tolerance below one on the cosine a user has in mind, some beam whose polarisation violates it is accepted (even one polarised along
its propagation direction), and whatever positive tolerance, some beam within it is rejected. -/
theorem C89_tolerance_depends_on_unit_fails (q : Qhull) (vs : List V3) (hq : q.extremeCount vs = vs.length) :
    (∀ tol : ℝ, tol < 1 → ∃ (wl : ℝ) (dir pol : V3), 0 < wl ∧ (∃ b, Beam.new q vs dir wl pol = .ok b) ∧ ¬ OrthogonalUpTo tol dir pol) ∧
    (∀ tol : ℝ, 0 < tol → ∃ (wl : ℝ) (dir pol : V3), 0 < wl ∧ dir ≠ 0 ∧ pol ≠ 0 ∧ OrthogonalUpTo tol dir pol ∧
      ∀ b, Beam.new q vs dir wl pol ≠ .ok b) := by
  have hpi := Real.pi_pos
  have n1 : norm (⟨1, 0, 0⟩ : V3) = 1 := by rw [norm_eq_one]; simp [nsq, V3.dot]
  have e0 : (⟨1, 0, 0⟩ : V3) ≠ 0 := fun h => by simpa using congrArg V3.x h
  constructor
  · intro tol ht
    refine ⟨2 * Real.pi * 10 ^ 8, ⟨1, 0, 0⟩, ⟨1, 0, 0⟩, by positivity, ?_, ?_⟩
    · rw [C89_accepted_iff_partial]
      refine ⟨by positivity, hq, e0, e0, ?_⟩
      unfold OrthogonalUpTo
      rw [n1, abs_of_pos (by positivity : 0 < 2 * Real.pi * 10 ^ 8)]
      have : (1 / 10 ^ 8 * (2 * Real.pi * 10 ^ 8) / (2 * Real.pi) : ℝ) = 1 := by field_simp
      rw [this]; simp [V3.dot]
    · unfold OrthogonalUpTo
      rw [n1]; simp [V3.dot]; exact ht
  · intro tol ht
    obtain ⟨t, ht0, ht1, htt⟩ : ∃ t : ℝ, 0 < t ∧ t ≤ 1 ∧ t ≤ tol := ⟨min 1 tol, by positivity, min_le_left _ _, min_le_right _ _⟩
    have hn : norm (⟨t, 1, 0⟩ : V3) = Real.sqrt (t ^ 2 + 1) := by
      unfold V3.norm; congr 1; simp only [nsq, V3.dot]; ring
    have l1 : 1 ≤ Real.sqrt (t ^ 2 + 1) := Real.one_le_sqrt.mpr (by nlinarith)
    have l2 : Real.sqrt (t ^ 2 + 1) ≤ 2 := by rw [Real.sqrt_le_left (by norm_num)]; nlinarith
    have p0 : (⟨t, 1, 0⟩ : V3) ≠ 0 := fun h => by simpa using congrArg V3.y h
    have hd : (⟨t, 1, 0⟩ : V3).dot ⟨1, 0, 0⟩ = t := by simp [V3.dot]
    refine ⟨t, ⟨1, 0, 0⟩, ⟨t, 1, 0⟩, ht0, e0, p0, ?_, ?_⟩
    · unfold OrthogonalUpTo
      rw [hd, hn, n1, abs_of_pos ht0]
      nlinarith
    · intro b hb
      have h := ((C89_accepted_iff_partial _ _ _ _ _).mp ⟨b, hb⟩).2.2.2.2
      unfold OrthogonalUpTo at h
      rw [hd, hn, n1, abs_of_pos ht0, div_mul_eq_mul_div, le_div_iff₀ (by positivity)] at h
      have := Real.two_le_pi
      nlinarith [mul_le_mul_of_nonneg_left l2 ht0.le, mul_le_mul_of_nonneg_left this ht0.le]

/-- **C89** In particular one and the same pair of vectors is accepted with the wavelength given in Angstrom and rejected with it given in
metres. -/
theorem C89_metres_fails (q : Qhull) (vs : List V3) (hq : q.extremeCount vs = vs.length) :
    ∃ dir pol : V3, (∃ b, Beam.new q vs dir 1 pol = .ok b) ∧ ∀ b, Beam.new q vs dir (1 / 10 ^ 10) pol ≠ .ok b := by
  have hpi := Real.pi_pos
  have hpi4 := Real.pi_le_four
  have n1 : norm (⟨1, 0, 0⟩ : V3) = 1 := by rw [norm_eq_one]; simp [nsq, V3.dot]
  have e0 : (⟨1, 0, 0⟩ : V3) ≠ 0 := fun h => by simpa using congrArg V3.x h
  obtain ⟨t, ht⟩ : ∃ t : ℝ, t = 1 / 10 ^ 16 := ⟨_, rfl⟩
  have hn : norm (⟨t, 1, 0⟩ : V3) = Real.sqrt (t ^ 2 + 1) := by
    unfold V3.norm; congr 1; simp only [nsq, V3.dot]; ring
  have l1 : 1 ≤ Real.sqrt (t ^ 2 + 1) := Real.one_le_sqrt.mpr (by nlinarith)
  have l2 : Real.sqrt (t ^ 2 + 1) ≤ 2 := by rw [Real.sqrt_le_left (by norm_num), ht]; norm_num
  obtain ⟨n, hN⟩ : ∃ n, n = Real.sqrt (t ^ 2 + 1) := ⟨_, rfl⟩
  rw [← hN] at hn l1 l2
  have p0 : (⟨t, 1, 0⟩ : V3) ≠ 0 := fun h => by simpa using congrArg V3.y h
  have hd : (⟨t, 1, 0⟩ : V3).dot ⟨1, 0, 0⟩ = t := by simp [V3.dot]
  have ht0 : 0 < t := by rw [ht]; positivity
  refine ⟨⟨1, 0, 0⟩, ⟨t, 1, 0⟩, ?_, ?_⟩
  · rw [C89_accepted_iff_partial]
    refine ⟨one_ne_zero, hq, e0, p0, ?_⟩
    unfold OrthogonalUpTo
    rw [hd, hn, n1, abs_of_pos ht0, div_mul_eq_mul_div, le_div_iff₀ (by positivity), abs_one, ht]
    nlinarith
  · intro b hb
    have h := ((C89_accepted_iff_partial _ _ _ _ _).mp ⟨b, hb⟩).2.2.2.2
    unfold OrthogonalUpTo at h
    rw [hd, hn, n1, abs_of_pos ht0, div_mul_eq_mul_div, le_div_iff₀ (by positivity), abs_of_pos (by positivity), ht] at h
    have := Real.two_le_pi
    nlinarith

end XRD
