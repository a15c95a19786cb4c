import Verif.Lemmas.Peaks
import Verif.Props.Motion

/-! Properties C01-C04, C39, C42: the peaks table returned by `Polycrystal.diffract`. -/

namespace XRD
open V3 M3 Fl Spec

theorem Beam.new_ok {q : Qhull} {vs : List V3} {dir : V3} {wl : ℝ} {pol : V3} {b : Beam}
    (h : Beam.new q vs dir wl pol = .ok b) :
    wl ≠ 0 ∧ dir ≠ 0 ∧ pol ≠ 0 ∧ b.waveVector = (2 * Real.pi / wl) • ((1 / dir.norm) • dir) ∧
    b.wavelength = wl ∧ b.polarization = (1 / pol.norm) • pol ∧ b.halfspaces = q.equations vs := by
  unfold Beam.new at h
  simp only at h
  split_ifs at h with h1 h2 h3 h4
  obtain rfl := Except.ok.inj h
  push Not at h3
  exact ⟨h1, h3.1, h3.2, rfl, rfl, rfl, rfl⟩

/-- The wave vector of a constructed beam has length `2π/λ`. -/
theorem Beam.norm_wave {q : Qhull} {vs : List V3} {dir : V3} {wl : ℝ} {pol : V3} {b : Beam}
    (h : Beam.new q vs dir wl pol = .ok b) (hl : 0 < wl) : b.waveVector.norm = 2 * Real.pi / wl := by
  obtain ⟨-, h2, -, h4, -⟩ := Beam.new_ok h
  have hn : 0 < dir.norm := V3.norm_pos.mpr h2
  rw [h4, V3.norm_smul, V3.norm_smul, abs_of_pos (by positivity), abs_of_pos (by positivity)]
  field_simp

theorem Beam.norm_pol {q : Qhull} {vs : List V3} {dir : V3} {wl : ℝ} {pol : V3} {b : Beam}
    (h : Beam.new q vs dir wl pol = .ok b) : b.polarization.norm = 1 := by
  obtain ⟨-, -, h3, -, -, h5, -⟩ := Beam.new_ok h
  have hn : 0 < pol.norm := V3.norm_pos.mpr h3
  rw [h5, V3.norm_smul, abs_of_pos (by positivity)]
  field_simp

theorem found_sound {b : Beam} {m : Motion} {G : V3} {t : ℝ} (hw : 0 < m.angle) (h : Found b m G t) :
    b.waveVector.dot (m.rotate1 G t) + nsq G / 2 = 0 ∧ 0 ≤ t ∧ t ≤ 1 := by
  unfold Motion.rotate1
  rw [← rho_identity, mul_comm m.angle t]
  rcases h with h | h
  · obtain ⟨h1, h2, h3, -⟩ := branch_sound hw (Or.inl rfl) h; exact ⟨h1, h2, h3⟩
  · obtain ⟨h1, h2, h3, -⟩ := branch_sound hw (Or.inr rfl) h; exact ⟨h1, h2, h3⟩

/-! ### C01 -/

/-- C01: every reported peak satisfies the Laue condition; its `G` columns are `G0` rotated by `t * angle` about the
motion axis and its `K_out` columns are `k + G`. -/
theorem C01_peaks_satisfy_laue (c : Crystal) (b : Beam) (a T o : V3) (w : ℝ) (m : Motion) (d : PeaksDict)
    (hm : Motion.new a w T o = .ok m) (ha : norm a = 1) (hc : ∀ ph ∈ c.phases, ph.Consistent)
    (hd : diffractCore c b m = .ok d) (row : List Fl) (hrow : row ∈ d.peaks) :
    ∃ (t : ℝ) (G0 G K : V3),
      Has d.columns row "diffraction_times" (fin t) ∧
      HasV d.columns row "G0_x" "G0_y" "G0_z" G0 ∧
      HasV d.columns row "Gx" "Gy" "Gz" G ∧
      HasV d.columns row "K_out_x" "K_out_y" "K_out_z" K ∧
      G = Spec.rotate a (t * w) G0 ∧ K = b.waveVector + G ∧ Elastic b.waveVector G := by
  obtain ⟨e, i, ph, n, hkl, wt, t, idx, h1, h2, h3, rfl⟩ := mem_diffract hc hd hrow
  obtain ⟨rfl, hw0, hw1, -⟩ := Motion.new_ok hm
  have h1' : nsq a = 1 := norm_eq_one.mp ha
  rw [diffract_columns hd]
  have hG : Motion.rotate1 ⟨a, w, T, o⟩ (c.G0 e hkl) t = Spec.rotate a (t * w) (c.G0 e hkl) := by
    unfold Motion.rotate1; rw [rotMat_eq_spec h1', mul_comm]
  refine ⟨t, c.G0 e hkl, Motion.rotate1 ⟨a, w, T, o⟩ (c.G0 e hkl) t,
    Motion.rotate1 ⟨a, w, T, o⟩ (c.G0 e hkl) t + b.waveVector, ⟨6, rfl, rfl⟩,
    ⟨⟨7, rfl, rfl⟩, ⟨8, rfl, rfl⟩, ⟨9, rfl, rfl⟩⟩, ⟨⟨10, rfl, rfl⟩, ⟨11, rfl, rfl⟩, ⟨12, rfl, rfl⟩⟩,
    ⟨⟨13, rfl, rfl⟩, ⟨14, rfl, rfl⟩, ⟨15, rfl, rfl⟩⟩, hG, by rw [add_comm], ?_⟩
  rw [elastic_iff]
  have := (found_sound hw0 h2).1
  rw [show nsq (Motion.rotate1 ⟨a, w, T, o⟩ (c.G0 e hkl) t) = nsq (c.G0 e hkl) from
    IsRot.nsq_mulVec (rotMat_isRot h1' _).1 _]
  exact this

/-- C01 for every accepted motion (axis of length `1 ± 1e-5`): the energy mismatch `|K_out|² - |k|²` of a reported peak
is at most `1e-4 |G0|²`. -/
theorem C01_peaks_nearly_elastic (c : Crystal) (b : Beam) (a T o : V3) (w : ℝ) (m : Motion) (d : PeaksDict)
    (hm : Motion.new a w T o = .ok m) (hc : ∀ ph ∈ c.phases, ph.Consistent)
    (hd : diffractCore c b m = .ok d) (row : List Fl) (hrow : row ∈ d.peaks) :
    ∃ (G0 K : V3), HasV d.columns row "G0_x" "G0_y" "G0_z" G0 ∧
      HasV d.columns row "K_out_x" "K_out_y" "K_out_z" K ∧
      |norm K ^ 2 - norm b.waveVector ^ 2| ≤ 1 / 10 ^ 4 * norm G0 ^ 2 := by
  obtain ⟨e, i, ph, n, hkl, wt, t, idx, h1, h2, h3, rfl⟩ := mem_diffract hc hd hrow
  obtain ⟨rfl, hw0, hw1, hax⟩ := Motion.new_ok hm
  rw [diffract_columns hd]
  refine ⟨c.G0 e hkl, Motion.rotate1 ⟨a, w, T, o⟩ (c.G0 e hkl) t + b.waveVector,
    ⟨⟨7, rfl, rfl⟩, ⟨8, rfl, rfl⟩, ⟨9, rfl, rfl⟩⟩, ⟨⟨13, rfl, rfl⟩, ⟨14, rfl, rfl⟩, ⟨15, rfl, rfl⟩⟩, ?_⟩
  have hs := (found_sound hw0 h2).1
  have hn := nearly_isometric hax (w * t) (c.G0 e hkl)
  rw [V3.norm_sq, V3.norm_sq, V3.norm_sq]
  set R := Motion.rotate1 ⟨a, w, T, o⟩ (c.G0 e hkl) t with hR
  have e1 : (R + b.waveVector).nsq - b.waveVector.nsq = R.nsq - (c.G0 e hkl).nsq := by
    have : (R + b.waveVector).nsq = R.nsq + 2 * b.waveVector.dot R + b.waveVector.nsq := by
      simp only [nsq, V3.dot, V3.add_x, V3.add_y, V3.add_z]; ring
    rw [this]; linarith
  rw [e1]; exact hn

/-! ### a concrete crystal used for non-vacuity and for the counterexamples -/

/-- corners of the cube `[-10,10]³` -/
def cubeVertices : List V3 := [⟨-10, -10, -10⟩, ⟨-10, -10, 10⟩, ⟨-10, 10, -10⟩, ⟨-10, 10, 10⟩, ⟨10, -10, -10⟩, ⟨10, -10, 10⟩,
  ⟨10, 10, -10⟩, ⟨10, 10, 10⟩]
/-- its half-spaces -/
def cubeFacets : List HalfSpace := [⟨⟨1, 0, 0⟩, -10⟩, ⟨⟨-1, 0, 0⟩, -10⟩, ⟨⟨0, 1, 0⟩, -10⟩, ⟨⟨0, -1, 0⟩, -10⟩, ⟨⟨0, 0, 1⟩, -10⟩, ⟨⟨0, 0, -1⟩, -10⟩]
/-- a concrete beam: along x, wavelength 2π, filling the cube `[-10,10]³`, polarized along z -/
noncomputable def demoBeam : Beam := ⟨⟨1, 0, 0⟩, 2 * Real.pi, cubeVertices, 0, cubeFacets, ⟨0, 0, 1⟩⟩
/-- it is built by the constructor -/
theorem demoBeam_new : Beam.new ⟨List.length, fun _ => cubeFacets⟩ cubeVertices ⟨1, 0, 0⟩ (2 * Real.pi) ⟨0, 0, 1⟩ = .ok demoBeam := by
  have hp := Real.pi_pos
  have n1 : norm (⟨1, 0, 0⟩ : V3) = 1 := by rw [norm_eq_one]; simp [nsq, V3.dot]
  have n2 : norm (⟨0, 0, 1⟩ : V3) = 1 := by rw [norm_eq_one]; simp [nsq, V3.dot]
  have hw : (2 * Real.pi / (2 * Real.pi)) • ((1 / (1:ℝ)) • (⟨1, 0, 0⟩ : V3)) = ⟨1, 0, 0⟩ := by
    rw [div_self (by positivity)]; ext <;> simp
  have hpol : (1 / (1:ℝ)) • (⟨0, 0, 1⟩ : V3) = ⟨0, 0, 1⟩ := by ext <;> simp
  unfold Beam.new
  dsimp only
  rw [if_neg (by positivity), if_neg (by simp), n1, n2, hw, hpol, if_neg, if_pos]
  · have : meanV cubeVertices = 0 := by unfold meanV cubeVertices; ext <;> simp
    rw [this]; rfl
  · norm_num [allclose, V3.dot]
  · rintro (h | h)
    · have := congrArg V3.x h; simp at this
    · have := congrArg V3.z h; simp at this
theorem demoBeam_contains {p : V3} (h : nsq p < 100) : demoBeam.contains p := by
  simp only [nsq, V3.dot] at h
  intro f hf
  simp only [demoBeam, cubeFacets, List.mem_cons, List.not_mem_nil, or_false] at hf
  rcases hf with rfl | rfl | rfl | rfl | rfl | rfl <;> simp only [V3.dot] <;>
    nlinarith [sq_nonneg p.x, sq_nonneg p.y, sq_nonneg p.z, sq_nonneg (p.x - 10), sq_nonneg (p.x + 10), sq_nonneg (p.y - 10),
      sq_nonneg (p.y + 10), sq_nonneg (p.z - 10), sq_nonneg (p.z + 10)]
/-- a motion that only rotates about the origin keeps the distance to the origin -/
theorem call1_nsq {m : Motion} (ha : norm m.axis = 1) (ht : m.translation = 0) (ho : m.origin = 0) (p : V3) (t : ℝ) :
    nsq (m.call1 p t) = nsq p := by
  have h1 : nsq m.axis = 1 := norm_eq_one.mp ha
  have : m.call1 p t = (rotMat m.axis (m.angle * t)).mulVec p := by
    unfold Motion.call1; rw [ht, ho]; ext <;> simp
  rw [this]; exact IsRot.nsq_mulVec (rotMat_isRot h1 _).1 _
/-- phase with the single reflection (1,0,0) -/
def demoPhase : Phase := ⟨[], "", none, [⟨1, 0, 0⟩], none⟩
/-- one element with orientation `U` and reciprocal matrix `B`, at the origin, of unit volume -/
def crystalUB (U B : M3) : Crystal := ⟨.torch, [0], [demoPhase], [U], [B], [0], [1]⟩
/-- an element with reciprocal vector `B·(1,0,0)` -/
def demoCrystal (G : V3) : Crystal := crystalUB 1 ⟨⟨G.x, 0, 0⟩, ⟨G.y, 1, 0⟩, ⟨G.z, 0, 1⟩⟩
/-- rotation about z by a right angle, no translation -/
noncomputable def demoZ : Motion := ⟨⟨0, 0, 1⟩, Real.pi / 2, 0, 0⟩

theorem demoZ_new : Motion.new ⟨0, 0, 1⟩ (Real.pi / 2) 0 0 = .ok demoZ := by
  have hpi : Real.pi / 2 < Real.pi ∧ Real.pi / 2 > 0 := ⟨by linarith [Real.pi_pos], by linarith [Real.pi_pos]⟩
  have hax : axisAccepted ⟨0, 0, 1⟩ := by unfold axisAccepted allclose; rw [norm_ez]; norm_num
  simp [Motion.new, hpi, hax, demoZ]

theorem demoCrystal_consistent (G : V3) : ∀ ph ∈ (demoCrystal G).phases, ph.Consistent := by
  intro ph hph
  simp [demoCrystal, crystalUB] at hph
  subst hph
  intro sf h; simp [demoPhase] at h

theorem demoCrystal_G0 (G : V3) : (demoCrystal G).G0 0 ⟨1, 0, 0⟩ = G := by
  ext <;> simp [Crystal.G0, demoCrystal, crystalUB, getG, HKL.toV, mulVec, vecMul, V3.dot]

theorem demo_reflection (G : V3) : Reflection (demoCrystal G) 0 0 demoPhase 0 ⟨1, 0, 0⟩ 1 :=
  ⟨by simp [demoCrystal, crystalUB], by simp [demoCrystal, crystalUB], by simp [UsablePlane, demoPhase]⟩

theorem demo_rho (G : V3) : (rho0Factor ⟨1, 0, 0⟩ ⟨0, 0, 1⟩).dot G = G.x ∧ (rho1Factor ⟨1, 0, 0⟩ ⟨0, 0, 1⟩).dot G = -G.y ∧
    (rho2Factor ⟨1, 0, 0⟩ ⟨0, 0, 1⟩).dot G = 0 := by
  refine ⟨?_, ?_, ?_⟩ <;> simp [rho0Factor, rho1Factor, rho2Factor, crossMat2, crossMat, vecMul, V3.dot]

/-- arctan of a half, in units of a quarter turn, is a time in `[0,1]` -/
theorem demo_time {s : ℝ} (h0 : 0 ≤ s) (h1 : s ≤ 1) :
    0 ≤ 2 * Real.arctan s / (Real.pi / 2) ∧ 2 * Real.arctan s / (Real.pi / 2) ≤ 1 := by
  have hp := Real.pi_pos
  have ha : 0 ≤ Real.arctan s := Real.arctan_nonneg.mpr h0
  have hb : Real.arctan s ≤ Real.pi / 4 := by rw [← Real.arctan_one]; exact Real.arctan_mono h1
  constructor
  · positivity
  · rw [div_le_one (by positivity)]; linarith

/-- The reciprocal vector `(-3/5, 4/5, 1)` touches the Ewald sphere at one moment. -/
theorem demo_tangent_roots : laueRoots (rho0Factor ⟨1, 0, 0⟩ ⟨0, 0, 1⟩) (rho1Factor ⟨1, 0, 0⟩ ⟨0, 0, 1⟩)
    (rho2Factor ⟨1, 0, 0⟩ ⟨0, 0, 1⟩) ⟨-3/5, 4/5, 1⟩ = (fin (1/2), fin (1/2)) := by
  obtain ⟨h0, h1, h2⟩ := demo_rho ⟨-3/5, 4/5, 1⟩
  have hn : nsq (⟨-3/5, 4/5, 1⟩ : V3) = 2 := by norm_num [nsq, V3.dot]
  rw [laueRoots_ne (by rw [h0, h2, hn]; norm_num)]
  simp only [h0, h1, h2, hn]
  norm_num

/-- The peaks of the tangent example: the same event twice. -/
theorem demo_tangent_peaks : ∃ d, diffractCore (demoCrystal ⟨-3/5, 4/5, 1⟩) demoBeam demoZ = .ok d ∧
    ∃ t, d.peaks = [row24 (demoCrystal ⟨-3/5, 4/5, 1⟩) demoBeam demoZ 0 0 ⟨1, 0, 0⟩ 1 t ++ [fin (0 : ℕ)],
      row24 (demoCrystal ⟨-3/5, 4/5, 1⟩) demoBeam demoZ 0 0 ⟨1, 0, 0⟩ 1 t ++ [fin (1 : ℕ)]] := by
  set G : V3 := ⟨-3/5, 4/5, 1⟩ with hG
  set t : ℝ := 2 * Real.arctan (1/2) / (Real.pi / 2) with ht
  have hkeep : keepTime (laueTime (fin (1/2)) (Real.pi / 2)) = some t := by
    rw [keepTime_eq]
    refine ⟨?_, demo_time (by norm_num) (by norm_num)⟩
    simp only [laueTime, Fl.arctan_fin, Fl.mul_fin]
    rw [Fl.div_fin_ne (by positivity)]
  have hg : grainIndices [0] 0 = [0] := by simp [grainIndices, List.range_succ]
  have hrows : allPhaseRows (demoCrystal G) demoBeam demoZ =
      [row10 (demoCrystal G) 0 0 ⟨1, 0, 0⟩ 1 t, row10 (demoCrystal G) 0 0 ⟨1, 0, 0⟩ 1 t] := by
    have hGG := demoCrystal_G0 G
    unfold Crystal.G0 at hGG
    unfold allPhaseRows phaseRows
    simp only [demoCrystal, crystalUB, List.length_singleton, List.range_one, List.flatMap_cons, List.flatMap_nil, List.append_nil,
      List.getElem?_cons_zero, hg, activePlanes, demoPhase, List.map_cons, List.map_nil]
    simp only [demoCrystal, crystalUB] at hGG
    rw [hGG]
    simp only [laueSolutions, laueBranch, List.length_singleton, List.range_one, List.flatMap_cons, List.flatMap_nil,
      List.append_nil, demoBeam, demoZ, List.getD_cons_zero, List.filterMap_cons, List.filterMap_nil]
    rw [hG, demo_tangent_roots]
    simp only [hkeep, Option.map_some]
    simp [row10, Crystal.G0, HKL.toV, getG, mulVec, vecMul, V3.dot]
  refine ⟨⟨[row24 (demoCrystal G) demoBeam demoZ 0 0 ⟨1, 0, 0⟩ 1 t ++ [fin (0 : ℕ)],
      row24 (demoCrystal G) demoBeam demoZ 0 0 ⟨1, 0, 0⟩ 1 t ++ [fin (1 : ℕ)]], peakColumns, demoBeam.waveVector,
      demoBeam.wavelength, demoZ.axis, demoZ, demoBeam⟩, ?_, t, rfl⟩
  unfold diffractCore computePeaks
  have hk : (demoCrystal G).mapKind = .torch := rfl
  simp only [hk, reduceCtorEq, false_and, if_false, hrows, List.length_cons, List.length_nil]
  norm_num
  simp only [extendRow_row10]
  have hill : illuminated demoBeam (row24 (demoCrystal G) demoBeam demoZ 0 0 ⟨1, 0, 0⟩ 1 t) = true := by
    rw [illuminated_row24]
    apply demoBeam_contains
    rw [call1_nsq norm_ez rfl rfl]
    simp [demoCrystal, crystalUB, nsq, V3.dot]
  rw [List.filter_cons_of_pos hill, List.filter_cons_of_pos hill]
  simp [List.mapIdx_cons]


/-- C01 is not vacuous: the tangent example returns peaks. -/
example : ∃ d row, diffractCore (demoCrystal ⟨-3/5, 4/5, 1⟩) demoBeam demoZ = .ok d ∧ row ∈ d.peaks := by
  obtain ⟨d, hd, t, ht⟩ := demo_tangent_peaks
  exact ⟨d, _, hd, by rw [ht]; exact List.mem_cons_self⟩

/-! ### C02 -/

/-- C02 (all planes except those that would also diffract after exactly half a turn): whenever the rotated diffraction
vector of an element and a usable plane of its phase satisfies the Laue condition at a time `t` in `[0,1]` and the source
point is inside the beam at that time, `diffract` reports a peak with that element, phase, plane and time. -/
theorem C02_no_event_missed_partial (c : Crystal) (b : Beam) (a T o : V3) (w : ℝ) (m : Motion) (d : PeaksDict)
    (hm : Motion.new a w T o = .ok m) (ha : norm a = 1) (hc : ∀ ph ∈ c.phases, ph.Consistent)
    (hd : diffractCore c b m = .ok d)
    (e i n : ℕ) (ph : Phase) (hkl : HKL) (wt t : ℝ)
    (hmap : c.phaseMap[e]? = some (i : ℝ)) (hph : c.phases[i]? = some ph) (hu : UsablePlane ph n hkl wt)
    (ht0 : 0 ≤ t) (ht1 : t ≤ 1)
    (hlaue : Elastic b.waveVector (Spec.rotate a (t * w) (c.G0 e hkl)))
    (hill : b.contains (m.call1 (c.sphereCentroids.getD e 0) t))
    (hhalf : ¬ Elastic b.waveVector (Spec.rotate a Real.pi (c.G0 e hkl))) :
    ∃ row ∈ d.peaks, Has d.columns row "grain_index" (fin e) ∧ Has d.columns row "phase_number" (fin i) ∧
      HasV d.columns row "h" "k" "l" hkl.toV ∧ Has d.columns row "diffraction_times" (fin t) := by
  obtain ⟨rfl, hw0, hw1, -⟩ := Motion.new_ok hm
  have h1' : nsq a = 1 := norm_eq_one.mp ha
  have hD : (rho2Factor b.waveVector a).dot (c.G0 e hkl) + nsq (c.G0 e hkl) / 2 - (rho0Factor b.waveVector a).dot (c.G0 e hkl) ≠ 0 := by
    intro h
    apply hhalf
    rw [← laue_iff_elastic h1']
    simp; linarith
  have hf : Found b ⟨a, w, T, o⟩ (c.G0 e hkl) t :=
    branch_complete hw0 hw1 hD ht0 ht1 ((laue_iff_elastic h1' _ _ _).mpr hlaue)
  obtain ⟨idx, hidx⟩ := mem_diffract_of hc hd ⟨hmap, hph, hu⟩ hf hill
  refine ⟨_, hidx, ?_⟩
  rw [diffract_columns hd]
  exact ⟨⟨0, rfl, rfl⟩, ⟨1, rfl, rfl⟩, ⟨⟨2, rfl, rfl⟩, ⟨3, rfl, rfl⟩, ⟨4, rfl, rfl⟩⟩, ⟨6, rfl, rfl⟩⟩

/-- A cubic crystal (`B = 6/5`) turned by `arctan(4/3)` about z: its (1,0,0) plane diffracts during the quarter turn,
but also after half a turn. -/
noncomputable def missedCrystal : Crystal := crystalUB ⟨⟨3/5, -4/5, 0⟩, ⟨4/5, 3/5, 0⟩, ⟨0, 0, 1⟩⟩ ⟨⟨6/5, 0, 0⟩, ⟨0, 6/5, 0⟩, ⟨0, 0, 6/5⟩⟩

theorem missed_G0 : missedCrystal.G0 0 ⟨1, 0, 0⟩ = ⟨18/25, 24/25, 0⟩ := by
  ext <;> simp [Crystal.G0, missedCrystal, crystalUB, getG, HKL.toV, mulVec, vecMul, V3.dot] <;> norm_num

theorem missed_rows : allPhaseRows missedCrystal demoBeam demoZ = [] := by
  rw [List.eq_nil_iff_forall_not_mem]
  intro r hr
  have hc : ∀ ph ∈ missedCrystal.phases, ph.Consistent := by
    intro ph hph
    simp [missedCrystal, crystalUB] at hph
    subst hph
    intro sf h; simp [demoPhase] at h
  obtain ⟨e, i, ph, n, hkl, w, t, ⟨h1, h2, h3⟩, h4, -⟩ := (mem_allPhaseRows hc).mp hr
  have he : e = 0 := by
    have := (List.getElem?_eq_some_iff.mp h1).1
    simpa [missedCrystal, crystalUB] using this
  have hi : i = 0 := by
    have := (List.getElem?_eq_some_iff.mp h2).1
    simpa [missedCrystal, crystalUB] using this
  subst he; subst hi
  have hph : ph = demoPhase := by simpa [missedCrystal, crystalUB] using h2.symm
  subst hph
  have hk : hkl = ⟨1, 0, 0⟩ := by
    have h5 := h3.1
    have hn := (List.getElem?_eq_some_iff.mp h5).1
    have : n = 0 := by simpa [demoPhase] using hn
    subst this
    simpa [demoPhase] using h5.symm
  subst hk
  rw [missed_G0] at h4
  obtain ⟨q0, q1, q2⟩ := demo_rho ⟨18/25, 24/25, 0⟩
  unfold Found at h4
  simp only [demoBeam, demoZ] at h4
  rw [laueRoots_nan (by rw [q0, q2]; norm_num [nsq, V3.dot])] at h4
  simp [laueTime, keepTime] at h4

/-- C02 fails as stated: an event at a time inside `(0,1)`, inside the beam, that `diffract` does not report
(the quadratic of the half-angle substitution degenerates when the plane also diffracts after half a turn). -/
theorem C02_no_event_missed_fails :
    ∃ (c : Crystal) (b : Beam) (m : Motion) (d : PeaksDict) (t : ℝ),
      (∃ q vs dir wl pol, Beam.new q vs dir wl pol = .ok b) ∧
      Motion.new m.axis m.angle m.translation m.origin = .ok m ∧ norm m.axis = 1 ∧
      Reflection c 0 0 demoPhase 0 ⟨1, 0, 0⟩ 1 ∧ diffractCore c b m = .ok d ∧ 0 < t ∧ t < 1 ∧
      Elastic b.waveVector (Spec.rotate m.axis (t * m.angle) (c.G0 0 ⟨1, 0, 0⟩)) ∧
      b.contains (m.call1 (c.sphereCentroids.getD 0 0) t) ∧ d.peaks = [] := by
  refine ⟨missedCrystal, demoBeam, demoZ, ⟨[], peakColumns, demoBeam.waveVector, demoBeam.wavelength, demoZ.axis, demoZ,
    demoBeam⟩, 2 * Real.arctan (3/4) / (Real.pi / 2), ⟨_, _, _, _, _, demoBeam_new⟩, demoZ_new, norm_ez, ?_, ?_, ?_, ?_, ?_, ?_, rfl⟩
  · exact ⟨by simp [missedCrystal, crystalUB], by simp [missedCrystal, crystalUB], by simp [UsablePlane, demoPhase]⟩
  · have hk : missedCrystal.mapKind = .torch := rfl
    simp [diffractCore, computePeaks, hk, missed_rows]
  · have : 0 < Real.arctan (3/4) := Real.arctan_pos.mpr (by norm_num)
    have := Real.pi_pos
    positivity
  · have hb : Real.arctan (3/4) < Real.pi / 4 := by rw [← Real.arctan_one]; exact Real.arctan_strictMono (by norm_num)
    have := Real.pi_pos
    rw [div_lt_one (by positivity)]; linarith
  · rw [missed_G0]
    have hax : nsq demoZ.axis = 1 := by simp [demoZ, nsq, V3.dot]
    rw [← laue_iff_elastic hax]
    obtain ⟨q0, q1, q2⟩ := demo_rho ⟨18/25, 24/25, 0⟩
    have e : 2 * Real.arctan (3/4) / (Real.pi / 2) * demoZ.angle = 2 * Real.arctan (3/4) := by
      have := Real.pi_pos
      simp only [demoZ]; field_simp
    rw [e, half_angle]
    simp only [demoBeam, demoZ, q0, q1, q2]
    norm_num [nsq, V3.dot]
  · apply demoBeam_contains
    rw [call1_nsq norm_ez rfl rfl]
    simp [missedCrystal, crystalUB, nsq, V3.dot]

/-- the hypotheses of the partial theorem are met by the tangent example -/
example : Elastic demoBeam.waveVector (Spec.rotate demoZ.axis (2 * Real.arctan (1/2) / (Real.pi / 2) * demoZ.angle) ⟨-3/5, 4/5, 1⟩) ∧
    ¬ Elastic demoBeam.waveVector (Spec.rotate demoZ.axis Real.pi ⟨-3/5, 4/5, 1⟩) := by
  have hax : nsq demoZ.axis = 1 := by simp [demoZ, nsq, V3.dot]
  obtain ⟨q0, q1, q2⟩ := demo_rho ⟨-3/5, 4/5, 1⟩
  have hp := Real.pi_pos
  constructor
  · rw [← laue_iff_elastic hax]
    have e : 2 * Real.arctan (1/2) / (Real.pi / 2) * demoZ.angle = 2 * Real.arctan (1/2) := by
      simp only [demoZ]; field_simp
    rw [e, half_angle]
    simp only [demoBeam, demoZ, q0, q1, q2]
    norm_num [nsq, V3.dot]
  · rw [← laue_iff_elastic hax]
    simp only [demoBeam, demoZ, q0, q1, q2]
    norm_num [nsq, V3.dot]

/-! ### C03 -/

/-- C03: reported times lie in `[0,1]` (any accepted motion). -/
theorem C03_times_in_unit_interval (c : Crystal) (b : Beam) (a T o : V3) (w : ℝ) (m : Motion) (d : PeaksDict)
    (hm : Motion.new a w T o = .ok m) (hc : ∀ ph ∈ c.phases, ph.Consistent)
    (hd : diffractCore c b m = .ok d) (row : List Fl) (hrow : row ∈ d.peaks) :
    ∃ t, Has d.columns row "diffraction_times" (fin t) ∧ 0 ≤ t ∧ t ≤ 1 := by
  obtain ⟨e, i, ph, n, hkl, wt, t, idx, h1, h2, h3, rfl⟩ := mem_diffract hc hd hrow
  obtain ⟨rfl, hw0, hw1, -⟩ := Motion.new_ok hm
  rw [diffract_columns hd]
  exact ⟨t, ⟨6, rfl, rfl⟩, (found_sound hw0 h2).2⟩

/-- C03 fails as stated: a reciprocal vector that touches the Ewald sphere is reported twice at the same time. -/
theorem C03_no_event_twice_fails :
    ∃ (c : Crystal) (b : Beam) (m : Motion) (d : PeaksDict) (r0 r1 : List Fl) (t : ℝ),
      (∃ q vs dir wl pol, Beam.new q vs dir wl pol = .ok b) ∧
      Motion.new m.axis m.angle m.translation m.origin = .ok m ∧ norm m.axis = 1 ∧
      diffractCore c b m = .ok d ∧ d.peaks[0]? = some r0 ∧ d.peaks[1]? = some r1 ∧
      (∀ r, r = r0 ∨ r = r1 → Has d.columns r "grain_index" (fin (0 : ℕ)) ∧ Has d.columns r "phase_number" (fin (0 : ℕ)) ∧
        HasV d.columns r "h" "k" "l" ⟨1, 0, 0⟩ ∧ Has d.columns r "diffraction_times" (fin t)) := by
  obtain ⟨d, hd, t, ht⟩ := demo_tangent_peaks
  refine ⟨_, demoBeam, demoZ, d, _, _, t, ⟨_, _, _, _, _, demoBeam_new⟩, demoZ_new, norm_ez, hd, by rw [ht]; rfl, by rw [ht]; rfl, ?_⟩
  rw [diffract_columns hd]
  have hv : (⟨1, 0, 0⟩ : V3) = HKL.toV ⟨1, 0, 0⟩ := by ext <;> simp [HKL.toV]
  rw [hv]
  rintro r (rfl | rfl)
  · exact ⟨⟨0, rfl, rfl⟩, ⟨1, rfl, rfl⟩, ⟨⟨2, rfl, rfl⟩, ⟨3, rfl, rfl⟩, ⟨4, rfl, rfl⟩⟩, ⟨6, rfl, rfl⟩⟩
  · exact ⟨⟨0, rfl, rfl⟩, ⟨1, rfl, rfl⟩, ⟨⟨2, rfl, rfl⟩, ⟨3, rfl, rfl⟩, ⟨4, rfl, rfl⟩⟩, ⟨6, rfl, rfl⟩⟩

/-! ### C04 -/

/-- C04: the `2theta` column obeys Bragg's law `sin(2θ/2) = |G0| λ / (4π)` with `2θ ∈ [0, π]`. -/
theorem C04_two_theta_obeys_bragg (q : Qhull) (vs : List V3) (dir pol : V3) (wl : ℝ) (b : Beam)
    (hb : Beam.new q vs dir wl pol = .ok b) (hwl : 0 < wl)
    (c : Crystal) (a T o : V3) (w : ℝ) (m : Motion) (d : PeaksDict)
    (hm : Motion.new a w T o = .ok m) (ha : norm a = 1) (hc : ∀ ph ∈ c.phases, ph.Consistent)
    (hd : diffractCore c b m = .ok d) (row : List Fl) (hrow : row ∈ d.peaks) :
    ∃ (tt : ℝ) (G0 : V3), Has d.columns row "2theta" (fin tt) ∧ HasV d.columns row "G0_x" "G0_y" "G0_z" G0 ∧
      0 ≤ tt ∧ tt ≤ Real.pi ∧ Real.sin (tt / 2) = norm G0 * wl / (4 * Real.pi) := by
  obtain ⟨e, i, ph, n, hkl, wt, t, idx, h1, h2, h3, rfl⟩ := mem_diffract hc hd hrow
  obtain ⟨rfl, hw0, hw1, -⟩ := Motion.new_ok hm
  have h1' : nsq a = 1 := norm_eq_one.mp ha
  have hk := Beam.norm_wave hb hwl
  have hs := (found_sound hw0 h2).1
  rw [diffract_columns hd]
  set G0 := c.G0 e hkl with hG0
  set R := Motion.rotate1 ⟨a, w, T, o⟩ G0 t with hR
  have hRn : nsq R = nsq G0 := IsRot.nsq_mulVec (rotMat_isRot h1' _).1 _
  set k := b.waveVector with hkdef
  have hkpos : 0 < k.norm := by rw [hk]; have := Real.pi_pos; positivity
  have hKn : (R + k).norm = k.norm := by
    rw [norm_eq_iff]
    have : (R + k).nsq = R.nsq + 2 * k.dot R + k.nsq := by
      simp only [nsq, V3.dot, V3.add_x, V3.add_y, V3.add_z]; ring
    rw [this, hRn]; linarith
  set x : ℝ := k.dot (R + k) / (k.norm * k.norm) with hx
  have hcs := abs_dot_le k (R + k)
  rw [hKn, abs_le] at hcs
  have hx1 : -1 ≤ x := by rw [hx, le_div_iff₀ (by positivity)]; linarith [hcs.1]
  have hx2 : x ≤ 1 := by rw [hx, div_le_one (by positivity)]; exact hcs.2
  have htt : twoTheta k (R + k) = fin (Real.arccos x) := by
    unfold twoTheta
    simp only [hKn, Fl.div_fin_ne hkpos.ne', Fl.mul_fin, Fl.add_fin]
    have e : k.x / k.norm * ((R + k).x / k.norm) + k.y / k.norm * ((R + k).y / k.norm) + k.z / k.norm * ((R + k).z / k.norm) = x := by
      rw [hx]; simp only [V3.dot]; field_simp
    rw [e, Fl.arccos_fin hx1 hx2]
  refine ⟨Real.arccos x, G0, ⟨22, rfl, ?_⟩, ⟨⟨7, rfl, rfl⟩, ⟨8, rfl, rfl⟩, ⟨9, rfl, rfl⟩⟩, Real.arccos_nonneg x,
    Real.arccos_le_pi x, ?_⟩
  · show some (twoTheta k (R + k)) = _
    rw [htt]
  · have hxe : x = 1 - nsq G0 / (2 * (k.norm * k.norm)) := by
      rw [hx]
      have : k.dot (R + k) = k.norm * k.norm - nsq G0 / 2 := by
        rw [V3.norm_mul_self]
        have : k.dot (R + k) = k.dot R + k.nsq := by simp only [nsq, V3.dot, V3.add_x, V3.add_y, V3.add_z]; ring
        rw [this]; linarith
      rw [this]; field_simp
    have hsin0 : 0 ≤ Real.sin (Real.arccos x / 2) := by
      apply Real.sin_nonneg_of_nonneg_of_le_pi
      · have := Real.arccos_nonneg x; linarith
      · have := Real.arccos_le_pi x; have := Real.pi_pos; linarith
    have hsq : Real.sin (Real.arccos x / 2) ^ 2 = (G0.norm / (2 * k.norm)) ^ 2 := by
      have h2 := Real.cos_sq (Real.arccos x / 2)
      rw [mul_div_cancel₀ _ (two_ne_zero)] at h2
      have h3 := Real.sin_sq_add_cos_sq (Real.arccos x / 2)
      rw [Real.cos_arccos hx1 hx2] at h2
      rw [div_pow, V3.norm_sq]
      have : Real.sin (Real.arccos x / 2) ^ 2 = 1 / 2 - x / 2 := by linarith
      rw [this, hxe]; field_simp; ring
    have hg := V3.norm_nonneg G0
    have : Real.sin (Real.arccos x / 2) = G0.norm / (2 * k.norm) := by
      have h5 := sq_eq_sq₀ hsin0 (by positivity : 0 ≤ G0.norm / (2 * k.norm))
      exact h5.mp hsq
    rw [this, hk]
    have := Real.pi_pos
    field_simp; ring

/-! ### C39 -/

/-- C39: `diffract` returns, in order, exactly the computed peaks whose source point is strictly inside every beam
half-space; `peak_index` counts 0,1,2,...; rows are as long as the list of (distinct) column names. -/
theorem C39_diffract_filters_and_numbers (c : Crystal) (b : Beam) (m : Motion) (d : PeaksDict)
    (hd : diffractCore c b m = .ok d) :
    ∃ computed, computePeaks c b m = .ok computed ∧
      d.peaks.map List.dropLast = computed.filter (fun row => @decide (∃ p, HasV d.columns row "Source_x" "Source_y" "Source_z" p ∧
        ∀ h ∈ b.halfspaces, h.n.dot p + h.d < 0) (Classical.dec _)) ∧
      (∀ i row, d.peaks[i]? = some row → Has d.columns row "peak_index" (fin (i : ℕ)) ∧ row.length = d.columns.length) ∧
      d.columns.length = 25 ∧ d.columns.Nodup := by
  have hcol := diffract_columns hd
  unfold diffractCore at hd
  cases hp : computePeaks c b m with
  | error e => rw [hp] at hd; cases hd
  | ok rows =>
    rw [hp] at hd
    obtain rfl := Except.ok.inj hd
    refine ⟨rows, rfl, ?_, ?_, rfl, (by decide : peakColumns.Nodup)⟩
    · show List.map List.dropLast (List.mapIdx (fun (i : ℕ) (row : List Fl) => row ++ [fin i]) (rows.filter (illuminated b))) = _
      rw [show List.map List.dropLast (List.mapIdx (fun (i : ℕ) (row : List Fl) => row ++ [fin i]) (rows.filter (illuminated b)))
          = rows.filter (illuminated b) from by apply List.ext_getElem <;> simp]
      apply List.filter_congr
      intro r hr
      obtain rfl := computePeaks_ok hp
      obtain ⟨r0, -, rfl⟩ := List.mem_map.mp hr
      by_cases hill : illuminated b (extendRow c b m r0) = true
      · rw [hill]; symm
        refine (@decide_eq_true_iff _ (Classical.dec _)).mpr ?_
        unfold illuminated at hill
        cases hs : sourceOf (extendRow c b m r0) with
        | none => rw [hs] at hill; simp at hill
        | some p =>
          rw [hs] at hill
          refine ⟨p, ?_, (@decide_eq_true_iff _ (Classical.propDecidable _)).mp hill⟩
          unfold sourceOf at hs
          split at hs
          · rename_i x y z h1 h2 h3
            obtain rfl := Option.some.inj hs
            exact ⟨⟨16, rfl, h1⟩, ⟨17, rfl, h2⟩, ⟨18, rfl, h3⟩⟩
          · cases hs
      · rw [Bool.not_eq_true] at hill
        rw [hill]; symm
        refine (@decide_eq_false_iff_not _ (Classical.dec _)).mpr ?_
        rintro ⟨p, ⟨⟨i, hi1, hi2⟩, ⟨j, hj1, hj2⟩, ⟨l, hl1, hl2⟩⟩, hp2⟩
        have key : ∀ (nm : String) (i0 i : ℕ), peakColumns[i0]? = some nm → peakColumns[i]? = some nm → i = i0 := by
          intro nm i0 i h0 h1
          obtain ⟨b0, e0⟩ := List.getElem?_eq_some_iff.mp h0
          obtain ⟨b1, e1⟩ := List.getElem?_eq_some_iff.mp h1
          have hnd : peakColumns.Nodup := by decide
          exact (hnd.getElem_inj_iff).mp (by rw [e0, e1])
        obtain rfl := key _ 16 i rfl hi1
        obtain rfl := key _ 17 j rfl hj1
        obtain rfl := key _ 18 l rfl hl1
        have hs : sourceOf (extendRow c b m r0) = some p := by
          unfold sourceOf; rw [hi2, hj2, hl2]
        unfold illuminated at hill
        rw [hs] at hill
        simp only [decide_eq_false_iff_not] at hill
        exact hill hp2
    · intro i row hrow
      simp only [List.getElem?_mapIdx, Option.map_eq_some_iff] at hrow
      obtain ⟨r, hr, rfl⟩ := hrow
      have hmem := (List.mem_filter.mp (List.mem_of_getElem? hr)).1
      obtain rfl := computePeaks_ok hp
      obtain ⟨r0, hr0, rfl⟩ := List.mem_map.mp hmem
      have hl : r0.length = 10 := by
        unfold allPhaseRows at hr0
        rw [List.mem_flatMap] at hr0
        obtain ⟨i, -, hi⟩ := hr0
        split at hi
        · unfold phaseRows at hi
          obtain ⟨s, -, rfl⟩ := List.mem_map.mp hi
          rfl
        · simp at hi
      have hl24 : (extendRow c b m r0).length = 24 := by simp [extendRow, hl]
      constructor
      · refine ⟨24, rfl, ?_⟩
        rw [List.getElem?_append_right (by rw [hl24])]
        simp [hl24]
      · simp [hl24, peakColumns]

/-! ### C42 -/

/-- C42: each peak's element belongs to the peak's phase, its Miller indices and weight are those of one plane of that
phase (weight 1 without structure factors, else the squared modulus, above `1e-6`), and its `G0` is `U B hkl` of that
element. -/
theorem C42_peaks_use_own_phase (c : Crystal) (b : Beam) (m : Motion) (d : PeaksDict)
    (hc : ∀ ph ∈ c.phases, ph.Consistent) (hd : diffractCore c b m = .ok d) (row : List Fl) (hrow : row ∈ d.peaks) :
    ∃ (e i n : ℕ) (ph : Phase) (hkl : HKL) (wt : ℝ),
      Has d.columns row "grain_index" (fin e) ∧ Has d.columns row "phase_number" (fin i) ∧
      c.phaseMap[e]? = some (i : ℝ) ∧ c.phases[i]? = some ph ∧ ph.miller[n]? = some hkl ∧
      (match ph.structureFactors with
        | none => wt = 1
        | some sf => ∃ F, sf[n]? = some F ∧ wt = F.1 ^ 2 + F.2 ^ 2 ∧ wt > 1 / 10 ^ 6) ∧
      HasV d.columns row "h" "k" "l" ⟨hkl.h, hkl.k, hkl.l⟩ ∧ Has d.columns row "structure_factors" (fin wt) ∧
      HasV d.columns row "G0_x" "G0_y" "G0_z"
        ((c.orientation.getD e 0).mulVec ((c.eB.getD e 0).mulVec ⟨hkl.h, hkl.k, hkl.l⟩)) := by
  obtain ⟨e, i, ph, n, hkl, wt, t, idx, ⟨h1, h2, h3⟩, h4, h5, rfl⟩ := mem_diffract hc hd hrow
  rw [diffract_columns hd]
  have hG : (c.orientation.getD e 0).mulVec ((c.eB.getD e 0).mulVec ⟨hkl.h, hkl.k, hkl.l⟩) = c.G0 e hkl := by
    unfold Crystal.G0 getG; rw [mulVec_mul]; rfl
  refine ⟨e, i, n, ph, hkl, wt, ⟨0, rfl, rfl⟩, ⟨1, rfl, rfl⟩, h1, h2, h3.1, h3.2, ⟨⟨2, rfl, rfl⟩, ⟨3, rfl, rfl⟩, ⟨4, rfl, rfl⟩⟩,
    ⟨5, rfl, rfl⟩, ?_⟩
  rw [hG]
  exact ⟨⟨7, rfl, rfl⟩, ⟨8, rfl, rfl⟩, ⟨9, rfl, rfl⟩⟩

/-- the other per-element columns: source point and volume are those of the peak's own element -/
theorem C42_source_and_volume (c : Crystal) (b : Beam) (m : Motion) (d : PeaksDict)
    (hc : ∀ ph ∈ c.phases, ph.Consistent) (hd : diffractCore c b m = .ok d) (row : List Fl) (hrow : row ∈ d.peaks) :
    ∃ (e : ℕ) (t : ℝ), Has d.columns row "grain_index" (fin e) ∧ Has d.columns row "diffraction_times" (fin t) ∧
      HasV d.columns row "Source_x" "Source_y" "Source_z" (m.call1 (c.sphereCentroids.getD e 0) t) ∧
      Has d.columns row "volumes" (fin (c.volumes.getD e 0)) := by
  obtain ⟨e, i, ph, n, hkl, wt, t, idx, ⟨h1, h2, h3⟩, h4, h5, rfl⟩ := mem_diffract hc hd hrow
  rw [diffract_columns hd]
  exact ⟨e, t, ⟨0, rfl, rfl⟩, ⟨6, rfl, rfl⟩, ⟨⟨16, rfl, rfl⟩, ⟨17, rfl, rfl⟩, ⟨18, rfl, rfl⟩⟩, ⟨21, rfl, rfl⟩⟩

end XRD
