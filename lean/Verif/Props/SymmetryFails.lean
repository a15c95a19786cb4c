import Verif.Props.Symmetry

/-! Property C98: a cubic crystal, and the counterexample for sheared elements. -/

namespace XRD
open V3 M3 Fl Spec
open scoped Classical

/-- in the beam of the scenes, a plane that touches the Ewald sphere at the half-angle tangent 1/2 is reported (twice) -/
theorem touching_reported (c : Crystal) (hk : c.mapKind = .torch) {i e : ℕ} {ph : Phase} (hph : c.phases[i]? = some ph) (he : e ∈ grainIndices c.phaseMap i)
    {r : HKL × ℝ} (hr : r ∈ reflections ph) (hw : r.2 > 1 / 10 ^ 6) (hsc : nsq (c.sphereCentroids.getD e 0) < 100)
    (hroots : laueRoots (rho0Factor ⟨1, 0, 0⟩ ⟨0, 0, 1⟩) (rho1Factor ⟨1, 0, 0⟩ ⟨0, 0, 1⟩) (rho2Factor ⟨1, 0, 0⟩ ⟨0, 0, 1⟩)
      (getG (c.orientation.getD e 0) (c.eB.getD e 0) r.1.toV) = (fin (1/2), fin (1/2))) :
    ∃ d, diffractCore c demoBeam demoZ = .ok d ∧ ∃ row ∈ d.peaks, HasV d.columns row "h" "k" "l" r.1.toV ∧
      HasV d.columns row "G0_x" "G0_y" "G0_z" (getG (c.orientation.getD e 0) (c.eB.getD e 0) r.1.toV) := by
  set t : ℝ := 2 * Real.arctan (1/2) / (Real.pi / 2) with ht
  set G := getG (c.orientation.getD e 0) (c.eB.getD e 0) r.1.toV with hG
  have hkeep : keepTime (laueTime (fin (1/2)) (Real.pi / 2)) = some t := by
    rw [keepTime_eq]
    refine ⟨?_, demo_time (by norm_num) (by norm_num)⟩
    simp only [laueTime, Fl.arctan_fin, Fl.mul_fin]
    rw [Fl.div_fin_ne (by positivity)]
  have hrow : ∀ pick : Fl × Fl → Fl, pick (fin (1/2), fin (1/2)) = fin (1/2) →
      [(e : ℝ), (i : ℝ), r.1.toV.x, r.1.toV.y, r.1.toV.z, r.2, t, G.x, G.y, G.z] ∈ elemRows pick c demoBeam demoZ i ph e := by
    intro pick hpick
    rw [elemRows_planes, List.mem_filterMap]
    refine ⟨r, List.mem_filter.mpr ⟨hr, by simpa using hw⟩, ?_⟩
    have hd : demoBeam.waveVector = ⟨1, 0, 0⟩ := rfl
    have hz : demoZ.axis = ⟨0, 0, 1⟩ := rfl
    have ha : demoZ.angle = Real.pi / 2 := rfl
    unfold planeRow
    dsimp only
    rw [hd, hz, ha, hroots, hpick, hkeep]
    rfl
  set r10 : List ℝ := [(e : ℝ), (i : ℝ), r.1.toV.x, r.1.toV.y, r.1.toV.z, r.2, t, G.x, G.y, G.z] with hr10
  have hlen : 2 ≤ (phaseRows c demoBeam demoZ i ph).length := by
    rw [phaseRows_elems, List.length_append]
    have h1 := List.length_pos_of_mem (List.mem_flatMap.mpr ⟨e, he, hrow Prod.fst rfl⟩)
    have h2 := List.length_pos_of_mem (List.mem_flatMap.mpr ⟨e, he, hrow Prod.snd rfl⟩)
    omega
  have hi := (List.getElem?_eq_some_iff.mp hph).1
  have hmem : r10 ∈ allPhaseRows c demoBeam demoZ := by
    unfold allPhaseRows
    rw [List.mem_flatMap]
    refine ⟨i, List.mem_range.mpr hi, ?_⟩
    rw [hph]
    dsimp only
    rw [phaseRows_elems, List.mem_append]
    exact Or.inl (List.mem_flatMap.mpr ⟨e, he, hrow Prod.fst rfl⟩)
  have hall : (allPhaseRows c demoBeam demoZ).length ≠ 1 := by
    unfold allPhaseRows
    rw [List.length_flatMap]
    have h2 : (match c.phases[i]? with | some ph => phaseRows c demoBeam demoZ i ph | none => []).length ≤
        ((List.range c.phases.length).map fun j => (match c.phases[j]? with | some ph => phaseRows c demoBeam demoZ j ph | none => []).length).sum :=
      List.le_sum_of_mem (List.mem_map.mpr ⟨i, List.mem_range.mpr hi, rfl⟩)
    intro hone
    have h3 := h2.trans_eq hone
    rw [hph] at h3
    dsimp only at h3
    omega
  rw [core_eq _ _ _ hk, if_neg hall]
  refine ⟨_, rfl, ?_⟩
  have hkept : extendRow c demoBeam demoZ r10 ∈ keptRows c demoBeam demoZ := by
    unfold keptRows
    rw [List.mem_filter]
    refine ⟨List.mem_map_of_mem hmem, ?_⟩
    have hsrc : sourceOf (extendRow c demoBeam demoZ r10) = some (demoZ.call1 (c.sphereCentroids.getD e 0) t) := by
      simp [sourceOf, extendRow, hr10, colD]
    unfold illuminated
    rw [hsrc]
    simp only [decide_eq_true_eq]
    apply demoBeam_contains
    rw [call1_nsq norm_ez rfl rfl]
    exact hsc
  obtain ⟨n, hn, hnr⟩ := List.getElem_of_mem hkept
  refine ⟨extendRow c demoBeam demoZ r10 ++ [fin (n : ℝ)], ?_, ?_, ?_⟩
  · dsimp only
    rw [List.mem_mapIdx]
    exact ⟨n, hn, by rw [hnr]⟩
  · exact ⟨⟨2, rfl, rfl⟩, ⟨3, rfl, rfl⟩, ⟨4, rfl, rfl⟩⟩
  · exact ⟨⟨7, rfl, rfl⟩, ⟨8, rfl, rfl⟩, ⟨9, rfl, rfl⟩⟩

/-! ### a cubic crystal -/

/-- the six planes of the form {100} -/
def cubicPlanes : List HKL := [⟨1, 0, 0⟩, ⟨0, 1, 0⟩, ⟨0, 0, 1⟩, ⟨-1, 0, 0⟩, ⟨0, -1, 0⟩, ⟨0, 0, -1⟩]
/-- the reciprocal lattice of a cubic cell -/
def cubicB (b : ℝ) : M3 := ⟨⟨b, 0, 0⟩, ⟨0, b, 0⟩, ⟨0, 0, b⟩⟩
/-- a generator for it: all planes of the form {100} if their `sin θ / λ` is between the limits -/
noncomputable def cubicX (b : ℝ) : Xfab :=
  { formB := fun _ => cubicB b
    genhkl := fun _ lo hi _ => if lo ≤ b / (4 * Real.pi) ∧ b / (4 * Real.pi) ≤ hi then cubicPlanes else []
    sfBatch := fun h _ _ _ => h.map fun _ => (1, 0) }
/-- the quarter turn about the second axis -/
def quarterY : M3 := ⟨⟨0, 0, 1⟩, ⟨0, 1, 0⟩, ⟨-1, 0, 0⟩⟩
/-- what it does to the planes -/
def quarterP (h : HKL) : HKL := ⟨h.l, h.k, -h.h⟩

theorem quarterY_rot : IsRot quarterY := by
  refine ⟨?_, ?_, ?_⟩
  · ext <;> simp [quarterY, tr, vecMul]
  · ext <;> simp [quarterY, tr, vecMul]
  · simp [quarterY, M3.det, V3.dot, V3.cross]

/-- the quarter turn is a symmetry of the cubic crystal -/
theorem cubic_symmetry (b : ℝ) : CrystalSymmetry (cubicX b) scenePhase quarterY quarterP := by
  refine ⟨quarterY_rot, ?_, ?_⟩
  · intro h
    ext <;> simp [quarterY, cubicX, cubicB, mulVec, V3.dot, quarterP, HKL.toV]
  · intro wl lo hi
    have hperm : (cubicPlanes.map quarterP).Perm cubicPlanes := by decide
    have hsetup : ∀ L, (cubicX b).genhkl scenePhase.unitCell (Real.sin lo / wl) (Real.sin hi / wl) scenePhase.sgname = L →
        reflections (scenePhase.setup (cubicX b) wl lo hi) = L.map fun h => (h, 1) := by
      rintro L rfl; rfl
    rw [hsetup _ rfl]
    rw [List.map_map]
    have : ((cubicX b).genhkl scenePhase.unitCell (Real.sin lo / wl) (Real.sin hi / wl) scenePhase.sgname).map
        ((fun r : HKL × ℝ => (quarterP r.1, r.2)) ∘ fun h => (h, 1)) =
        (((cubicX b).genhkl scenePhase.unitCell (Real.sin lo / wl) (Real.sin hi / wl) scenePhase.sgname).map quarterP).map fun h => (h, (1 : ℝ)) := by
      rw [List.map_map]; rfl
    rw [this]
    refine List.Perm.map _ ?_
    show ((if _ then cubicPlanes else [] : List HKL).map quarterP).Perm (if _ then cubicPlanes else [])
    split_ifs
    · exact hperm
    · exact List.Perm.refl _

/-- one element with orientation `U` and strain `ε` -/
noncomputable def strainedPoly (U ε B : M3) : Polycrystal :=
  { meshLab := sceneMesh, meshSample := sceneMesh, orientationLab := [U], orientationSample := [U], strainLab := [ε],
    strainSample := [ε], phases := [scenePhase], mapKind := .torch, phaseMap := [0], eB := [B],
    meshVolumes := (elements sceneMesh.coord sceneMesh.enod).map tetVolume }

theorem strainedPoly_new (x : Xfab) (U ε L : M3) (hs : Symmetric ε) (hL : cholesky (strainC (U.tr * (ε * U))) = .ok L) :
    Polycrystal.new x sceneMesh (.many [U]) (.one ε) (.many [scenePhase]) (some [0]) = .ok (strainedPoly U ε (L.tr.inv * x.formB scenePhase.unitCell)) := by
  have hg : grainIndices [0] 0 = [0] := by simp [grainIndices, List.range_succ]
  have hl : sceneMesh.enod.length = 1 := rfl
  have hb : bOfStrain (U.tr * (ε * U)) (x.formB scenePhase.unitCell) = .ok (L.tr.inv * x.formB scenePhase.unitCell) := by
    unfold bOfStrain; rw [hL]
  have hsym := crystal_symm (U := U) hs
  have hlab : labStrainToB [(ε, U)] (x.formB scenePhase.unitCell) = .ok [L.tr.inv * x.formB scenePhase.unitCell] := by
    unfold labStrainToB epsilonToBBatch
    rw [if_neg]
    · simp only [List.map, batch, hb]
    · rintro ⟨e, he, hn⟩
      simp only [List.map, List.mem_cons, List.not_mem_nil, or_false] at he
      subst he
      exact feasible_no_neg hsym ((feasible_iff_cholesky hsym).mpr ⟨L, hL⟩) hn
  have heB : instantiateEB x 1 [U] [ε] [scenePhase] [0] = .ok [L.tr.inv * x.formB scenePhase.unitCell] := by
    unfold instantiateEB
    rw [if_neg]
    · unfold eBLoop eBStep
      dsimp only
      simp only [hg, List.map, List.getD_cons_zero, hlab]
      rfl
    · rintro ⟨i, hi, e, he, hle⟩
      simp only [List.length_singleton, Nat.lt_one_iff] at hi
      subst hi
      rw [hg] at he
      simp at he
      omega
  unfold Polycrystal.new
  dsimp only
  rw [hl]
  simp only [instantiateMat, instantiatePhase, PhasesArg.toList, List.replicate_one, List.length_singleton, if_true, heB]
  rfl

theorem cubic_setup {b lo hi : ℝ} (h : Real.sin lo ≤ b / 2 ∧ b / 2 ≤ Real.sin hi) :
    scenePhase.setup (cubicX b) demoBeam.wavelength lo hi = ⟨[1, 1, 1, 90, 90, 90], "P1", none, cubicPlanes, none⟩ := by
  have hp := Real.pi_pos
  have e : b / (4 * Real.pi) = (b / 2) / (2 * Real.pi) := by field_simp; ring
  have hc : Real.sin lo / (2 * Real.pi) ≤ b / (4 * Real.pi) ∧ b / (4 * Real.pi) ≤ Real.sin hi / (2 * Real.pi) := by
    rw [e]
    exact ⟨div_le_div_of_nonneg_right h.1 (by positivity), div_le_div_of_nonneg_right h.2 (by positivity)⟩
  unfold Phase.setup scenePhase Phase.new cubicX demoBeam
  simp only
  rw [if_pos hc]

/-- the backscattering reflection -/
theorem back_roots : laueRoots (rho0Factor ⟨1, 0, 0⟩ ⟨0, 0, 1⟩) (rho1Factor ⟨1, 0, 0⟩ ⟨0, 0, 1⟩)
    (rho2Factor ⟨1, 0, 0⟩ ⟨0, 0, 1⟩) ⟨-6/5, 8/5, 0⟩ = (fin (1/2), fin (1/2)) := by
  obtain ⟨h0, h1, h2⟩ := demo_rho ⟨-6/5, 8/5, 0⟩
  have hn : nsq (⟨-6/5, 8/5, 0⟩ : V3) = 4 := by norm_num [nsq, V3.dot]
  rw [laueRoots_ne (by rw [h0, h2, hn]; norm_num)]
  simp only [h0, h1, h2, hn]
  norm_num

/-- the crystal reports the plane (0,1,0) if it is seen at the backscattering position -/
theorem strained_reports {U ε B : M3} {b : ℝ} (hb : 0 ≤ b ∧ b ≤ 2) (hG : getG U B ⟨0, 1, 0⟩ = ⟨-6/5, 8/5, 0⟩) :
    ∃ d p1, (strainedPoly U ε B).diffract (cubicX b) demoBeam demoZ 0 (Real.pi / 2) none = .ok (d, p1) ∧
      ∃ row ∈ d.peaks, HasV d.columns row "h" "k" "l" ⟨0, 1, 0⟩ ∧ HasV d.columns row "G0_x" "G0_y" "G0_z" ⟨-6/5, 8/5, 0⟩ := by
  have hset := cubic_setup (b := b) (lo := 0) (hi := Real.pi / 2) (by rw [Real.sin_zero, Real.sin_pi_div_two]; constructor <;> linarith)
  set ph : Phase := ⟨[1, 1, 1, 90, 90, 90], "P1", none, cubicPlanes, none⟩ with hph
  have hcr : ((strainedPoly U ε B).setupPhases (cubicX b) demoBeam.wavelength 0 (Real.pi / 2)).crystal =
      ⟨.torch, [0], [ph], [U], [B], sceneMesh.espherecentroids, (strainedPoly U ε B).meshVolumes⟩ := by
    have h1 : ((strainedPoly U ε B).setupPhases (cubicX b) demoBeam.wavelength 0 (Real.pi / 2)).crystal =
      ⟨.torch, [0], [scenePhase.setup (cubicX b) demoBeam.wavelength 0 (Real.pi / 2)], [U], [B], sceneMesh.espherecentroids,
        (strainedPoly U ε B).meshVolumes⟩ := rfl
    rw [h1, hset]
  have hkl : HKL.toV ⟨0, 1, 0⟩ = ⟨0, 1, 0⟩ := by simp [HKL.toV]
  obtain ⟨d, hd, row, hrow, h1, h2⟩ := touching_reported ⟨.torch, [0], [ph], [U], [B], sceneMesh.espherecentroids, (strainedPoly U ε B).meshVolumes⟩ rfl
    (i := 0) (e := 0) (ph := ph) rfl (by simp [grainIndices, List.range_succ]) (r := (⟨0, 1, 0⟩, 1))
    (by rw [hph]; simp [reflections, cubicPlanes]) (by norm_num) scene_sphere
    (by
      show laueRoots _ _ _ (getG U B (HKL.toV ⟨0, 1, 0⟩)) = _
      rw [hkl, hG]; exact back_roots)
  refine ⟨d, (strainedPoly U ε B).setupPhases (cubicX b) demoBeam.wavelength 0 (Real.pi / 2), ?_, row, hrow, by rw [← hkl]; exact h1, ?_⟩
  · unfold Polycrystal.diffract
    dsimp only [Polycrystal.limits]
    rw [hcr, hd]
  · have : getG U B (HKL.toV ⟨0, 1, 0⟩) = ⟨-6/5, 8/5, 0⟩ := by rw [hkl, hG]
    rw [← this]; exact h2

/-- C98 is not vacuous: a cubic crystal turned so that its plane (0,1,0) is in the backscattering position; the quarter turn about the
second crystal axis is a symmetry; the reoriented crystal is built and reports the same diffraction vector. -/
example : let U : M3 := ⟨⟨4/5, -3/5, 0⟩, ⟨3/5, 4/5, 0⟩, ⟨0, 0, 1⟩⟩
    IsRot U ∧ Hydrostatic (.one 0) ∧ CrystalSymmetry (cubicX 2) scenePhase quarterY quarterP ∧
    ∃ p q, Polycrystal.new (cubicX 2) sceneMesh (.many [U]) (.one 0) (.many [scenePhase]) (some [0]) = .ok p ∧
      Polycrystal.new (cubicX 2) sceneMesh (.many [U * quarterY]) (.one 0) (.many [scenePhase]) (some [0]) = .ok q ∧
      ∃ d' q1, q.diffract (cubicX 2) demoBeam demoZ 0 (Real.pi / 2) none = .ok (d', q1) ∧
        ∃ row ∈ d'.peaks, HasV d'.columns row "G0_x" "G0_y" "G0_z" ⟨-6/5, 8/5, 0⟩ := by
  intro U
  have hU : IsRot U := by
    refine ⟨?_, ?_, ?_⟩
    · ext <;> norm_num [U, tr, vecMul]
    · ext <;> norm_num [U, tr, vecMul]
    · norm_num [U, M3.det, V3.dot, V3.cross]
  have hz : (0 : M3) = (0 : ℝ) • (1 : M3) := by ext <;> simp
  have hL : cholesky (strainC (U.tr * (0 * U))) = .ok 1 := by
    have e : strainC (U.tr * (0 * U)) = 1 := by ext <;> simp [strainC, vecMul, tr]
    rw [e]
    apply cholesky_unique <;> first | simp | skip
    ext <;> simp [vecMul, tr, symL]
  have hp := strainedPoly_new (cubicX 2) U 0 1 rfl hL
  have hB : (1 : M3).tr.inv * (cubicX 2).formB scenePhase.unitCell = cubicB 2 := by
    have : (1 : M3).tr.inv = 1 := by
      apply M3.inv_unique
      · rw [tr_one, det_one]; norm_num
      · rw [tr_one, mul_one']
    rw [this, one_mul']; rfl
  rw [hB] at hp
  obtain ⟨hnew, hall⟩ := C98_equivalent_orientations_partial (cubicX 2) sceneMesh [U] (by simpa using hU) (.one 0) ⟨0, hz⟩ [scenePhase] [0]
    (fun _ => quarterY) (fun _ => quarterP) (by
      intro i ph hph e _
      have hi := (List.getElem?_eq_some_iff.mp hph).1
      simp only [List.length_singleton, Nat.lt_one_iff] at hi
      subst hi
      obtain rfl := Option.some.inj hph
      exact cubic_symmetry 2)
  obtain ⟨q, hq⟩ := hnew.mp ⟨_, hp⟩
  refine ⟨hU, ⟨0, hz⟩, cubic_symmetry 2, _, q, hp, hq, ?_⟩
  obtain ⟨hok, hpk⟩ := hall _ q hp hq [] demoBeam demoZ 0 (Real.pi / 2) none
  obtain ⟨d, p1, hd, row, hrow, -, hG⟩ := strained_reports (U := U) (ε := 0) (B := cubicB 2) (b := 2) (by norm_num)
    (by ext <;> norm_num [getG, cubicB, U, mulVec, vecMul, V3.dot])
  obtain ⟨⟨d', q1⟩, hd'⟩ := hok.mp ⟨_, hd⟩
  obtain ⟨hc, l, hl, hperm⟩ := hpk d d' p1 q1 hd hd'
  refine ⟨d', q1, hd', ?_⟩
  obtain ⟨n, hn, rfl⟩ := List.getElem_of_mem hrow
  have hg := List.forall₂_iff_get.mp hl
  have hn' : n < l.length := hg.1 ▸ hn
  obtain ⟨-, hsame⟩ := hg.2 n hn hn'
  simp only [List.get_eq_getElem] at hsame
  refine ⟨l[n], hperm.mem_iff.mp (List.getElem_mem hn'), ?_⟩
  rw [hc]
  exact ⟨(hsame _ (by decide) (by decide) (by decide) (by decide) _).mpr hG.1, (hsame _ (by decide) (by decide) (by decide) (by decide) _).mpr hG.2.1,
    (hsame _ (by decide) (by decide) (by decide) (by decide) _).mpr hG.2.2⟩

/-- the shear strain of the counterexample: `I + 2ε = FᵀF` with `F = [[1, 3/4, 0], [0, 1, 0], [0, 0, 1]]` -/
noncomputable def shear : M3 := ⟨⟨0, 3/8, 0⟩, ⟨3/8, 9/32, 0⟩, ⟨0, 0, 0⟩⟩

theorem shear_chol : cholesky (strainC ((1 : M3).tr * (shear * 1))) = .ok ⟨⟨1, 0, 0⟩, ⟨3/4, 1, 0⟩, ⟨0, 0, 1⟩⟩ := by
  rw [tr_one, one_mul', mul_one']
  apply cholesky_unique <;> first | rfl | norm_num | skip
  ext <;> norm_num [vecMul, tr, symL, strainC, shear]

theorem shear_chol' : cholesky (strainC (quarterY.tr * (shear * quarterY))) = .ok ⟨⟨1, 0, 0⟩, ⟨0, 5/4, 0⟩, ⟨0, 3/5, 4/5⟩⟩ := by
  apply cholesky_unique <;> first | rfl | norm_num | skip
  ext <;> norm_num [vecMul, tr, symL, strainC, shear, quarterY]

/-- C98 is false of sheared elements: a cubic crystal with a shear strain (given in the laboratory frame), and the same crystal with
the same strain but its orientation described by a symmetry-equivalent one.  The first reports a peak; of the second no reported peak
even has a diffraction vector of the same length (Bragg angle). -/
theorem C98_sheared_fails : ∃ (x : Xfab) (ph : Phase) (S ε : M3) (P : HKL → HKL) (p q : Polycrystal), Symmetric ε ∧ CrystalSymmetry x ph S P ∧
    Polycrystal.new x sceneMesh (.many [1]) (.one ε) (.many [ph]) (some [0]) = .ok p ∧
    Polycrystal.new x sceneMesh (.many [1 * S]) (.one ε) (.many [ph]) (some [0]) = .ok q ∧
    ∃ (b : Beam) (m : Motion) (d : PeaksDict) (p1 : Polycrystal), p.diffract x b m 0 (Real.pi / 2) none = .ok (d, p1) ∧
      ∃ row ∈ d.peaks, ∃ G, HasV d.columns row "G0_x" "G0_y" "G0_z" G ∧
        ∀ d' q1, q.diffract x b m 0 (Real.pi / 2) none = .ok (d', q1) → ∀ row' ∈ d'.peaks, ∀ G', HasV d'.columns row' "G0_x" "G0_y" "G0_z" G' →
          norm G' ≠ norm G := by
  have hs : Symmetric shear := rfl
  have hp := strainedPoly_new (cubicX (8/5)) 1 shear _ hs shear_chol
  have hq := strainedPoly_new (cubicX (8/5)) quarterY shear _ hs shear_chol'
  have hB : (⟨⟨1, 0, 0⟩, ⟨3/4, 1, 0⟩, ⟨0, 0, 1⟩⟩ : M3).tr.inv * (cubicX (8/5)).formB scenePhase.unitCell =
      ⟨⟨8/5, -6/5, 0⟩, ⟨0, 8/5, 0⟩, ⟨0, 0, 8/5⟩⟩ := by
    have : (⟨⟨1, 0, 0⟩, ⟨3/4, 1, 0⟩, ⟨0, 0, 1⟩⟩ : M3).tr.inv = ⟨⟨1, -3/4, 0⟩, ⟨0, 1, 0⟩, ⟨0, 0, 1⟩⟩ := by
      apply M3.inv_unique
      · norm_num [tr, M3.det, V3.dot, V3.cross]
      · ext <;> norm_num [vecMul, tr]
    rw [this]
    ext <;> norm_num [vecMul, cubicX, cubicB]
  have hB' : (⟨⟨1, 0, 0⟩, ⟨0, 5/4, 0⟩, ⟨0, 3/5, 4/5⟩⟩ : M3).tr.inv * (cubicX (8/5)).formB scenePhase.unitCell =
      ⟨⟨8/5, 0, 0⟩, ⟨0, 32/25, -24/25⟩, ⟨0, 0, 2⟩⟩ := by
    have : (⟨⟨1, 0, 0⟩, ⟨0, 5/4, 0⟩, ⟨0, 3/5, 4/5⟩⟩ : M3).tr.inv = ⟨⟨1, 0, 0⟩, ⟨0, 4/5, -3/5⟩, ⟨0, 0, 5/4⟩⟩ := by
      apply M3.inv_unique
      · norm_num [tr, M3.det, V3.dot, V3.cross]
      · ext <;> norm_num [vecMul, tr]
    rw [this]
    ext <;> norm_num [vecMul, cubicX, cubicB]
  rw [hB] at hp
  rw [hB'] at hq
  refine ⟨cubicX (8/5), scenePhase, quarterY, shear, quarterP, _, _, hs, cubic_symmetry _, hp, by rw [one_mul']; exact hq, demoBeam, demoZ, ?_⟩
  obtain ⟨d, p1, hd, row, hrow, -, hG⟩ := strained_reports (U := 1) (ε := shear) (B := ⟨⟨8/5, -6/5, 0⟩, ⟨0, 8/5, 0⟩, ⟨0, 0, 8/5⟩⟩) (b := 8/5) (by norm_num)
    (by ext <;> norm_num [getG, mulVec, vecMul, V3.dot])
  refine ⟨d, p1, hd, row, hrow, _, hG, ?_⟩
  intro d' q1 hd' row' hrow' G' hG'
  obtain ⟨lo, hi, hl, rfl, hc⟩ := Polycrystal.diffract_ok hd'
  have hl := Except.ok.inj hl
  simp only [Prod.mk.injEq] at hl
  obtain ⟨rfl, rfl⟩ := hl
  have hset := cubic_setup (b := 8/5) (lo := 0) (hi := Real.pi / 2) (by rw [Real.sin_zero, Real.sin_pi_div_two]; norm_num)
  have hcons : ∀ ph ∈ ((strainedPoly quarterY shear ⟨⟨8/5, 0, 0⟩, ⟨0, 32/25, -24/25⟩, ⟨0, 0, 2⟩⟩).setupPhases (cubicX (8/5)) demoBeam.wavelength 0
      (Real.pi / 2)).crystal.phases, ph.Consistent := by
    intro ph hph
    have : ph ∈ [scenePhase.setup (cubicX (8/5)) demoBeam.wavelength 0 (Real.pi / 2)] := hph
    rw [List.mem_singleton, hset] at this
    subst this
    exact fun sf h => by cases h
  obtain ⟨e, i, n, ph, hkl, wt, -, -, hmap, hph, hmil, -, -, -, hG2⟩ := C42_peaks_use_own_phase _ _ _ _ hcons hc row' hrow'
  have hi0 : i = 0 := by
    have : i < 1 := (List.getElem?_eq_some_iff.mp hph).1
    omega
  have he0 : e = 0 := by
    have : e < 1 := (List.getElem?_eq_some_iff.mp hmap).1
    omega
  subst hi0 he0
  have hph' : some (scenePhase.setup (cubicX (8/5)) demoBeam.wavelength 0 (Real.pi / 2)) = some ph := hph
  rw [hset] at hph'
  obtain rfl := Option.some.inj hph'
  have hGe : G' = quarterY.mulVec ((⟨⟨8/5, 0, 0⟩, ⟨0, 32/25, -24/25⟩, ⟨0, 0, 2⟩⟩ : M3).mulVec ⟨hkl.h, hkl.k, hkl.l⟩) := by
    have hcol := diffract_columns hc
    rw [hcol] at hG' hG2
    have k1 := (has_iff 7 rfl).mp hG'.1
    have k2 := (has_iff 8 rfl).mp hG'.2.1
    have k3 := (has_iff 9 rfl).mp hG'.2.2
    rw [(has_iff 7 rfl).mp hG2.1] at k1
    rw [(has_iff 8 rfl).mp hG2.2.1] at k2
    rw [(has_iff 9 rfl).mp hG2.2.2] at k3
    simp only [Option.some.injEq, fin.injEq] at k1 k2 k3
    exact (V3.ext k1 k2 k3).symm
  have hmem : hkl ∈ cubicPlanes := List.mem_of_getElem? hmil
  have hn2 : norm (⟨-6/5, 8/5, 0⟩ : V3) = 2 := by
    unfold V3.norm
    rw [show nsq (⟨-6/5, 8/5, 0⟩ : V3) = 2 ^ 2 by norm_num [nsq, V3.dot]]
    exact Real.sqrt_sq (by norm_num)
  rw [hn2]
  intro hcontra
  have hsq : nsq G' = 4 := by rw [← V3.norm_sq, hcontra]; norm_num
  rw [hGe] at hsq
  simp only [cubicPlanes, List.mem_cons, List.not_mem_nil, or_false] at hmem
  rcases hmem with rfl | rfl | rfl | rfl | rfl | rfl <;> norm_num [quarterY, mulVec, V3.dot, nsq] at hsq

end XRD
