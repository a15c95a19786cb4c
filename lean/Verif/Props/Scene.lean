import Verif.Props.Polycrystal

/-! A complete concrete scene (mesh, phase, crystal, beam, motion) used beside the theorems to show that their hypotheses are
met, and in the counterexamples. -/

namespace XRD
open V3 M3 Fl Spec
open scoped Classical

/-- a crystal of one element whose only reflection touches the Ewald sphere once: `diffract` returns that event twice -/
theorem tangent_scene (U B : M3) (sc : V3) (vol : ℝ) (ph : Phase) (hmil : ph.miller = [⟨1, 0, 0⟩]) (hsf : ph.structureFactors = none)
    (m : Motion) (hm : m.angle = Real.pi / 2) (hax : norm m.axis = 1) (hT : m.translation = 0) (ho : m.origin = 0) (hsc : nsq sc < 100)
    (hroots : laueRoots (rho0Factor ⟨1, 0, 0⟩ m.axis) (rho1Factor ⟨1, 0, 0⟩ m.axis) (rho2Factor ⟨1, 0, 0⟩ m.axis)
      (getG U B ⟨1, 0, 0⟩) = (fin (1/2), fin (1/2))) :
    let c : Crystal := ⟨.torch, [0], [ph], [U], [B], [sc], [vol]⟩
    ∃ d, diffractCore c demoBeam m = .ok d ∧ d.columns = peakColumns ∧ (d.beam = demoBeam ∧ d.motion = m) ∧
    ∃ t, m.angle * t = 2 * Real.arctan (1/2) ∧ d.peaks = [row24 c demoBeam m 0 0 ⟨1, 0, 0⟩ 1 t ++ [fin (0 : ℕ)],
      row24 c demoBeam m 0 0 ⟨1, 0, 0⟩ 1 t ++ [fin (1 : ℕ)]] := by
  intro c
  set t : ℝ := 2 * Real.arctan (1/2) / (Real.pi / 2) with ht
  have hkeep : keepTime (laueTime (fin (1/2)) (Real.pi / 2)) = some t := by
    rw [keepTime_eq]
    refine ⟨?_, demo_time (by norm_num) (by norm_num)⟩
    simp only [laueTime, Fl.arctan_fin, Fl.mul_fin]
    rw [Fl.div_fin_ne (by positivity)]
  have hg : grainIndices [0] 0 = [0] := by simp [grainIndices, List.range_succ]
  have hap : activePlanes ph = ([⟨1, 0, 0⟩], [1]) := by unfold activePlanes; rw [hsf, hmil]; rfl
  have hkl : HKL.toV ⟨1, 0, 0⟩ = ⟨1, 0, 0⟩ := by simp [HKL.toV]
  have hrows : allPhaseRows c demoBeam m = [row10 c 0 0 ⟨1, 0, 0⟩ 1 t, row10 c 0 0 ⟨1, 0, 0⟩ 1 t] := by
    unfold allPhaseRows phaseRows
    simp only [c, List.length_singleton, List.range_one, List.flatMap_cons, List.flatMap_nil, List.append_nil,
      List.getElem?_cons_zero, hg, hap, List.map_cons, List.map_nil, List.getD_cons_zero, hkl]
    simp only [laueSolutions, laueBranch, List.length_singleton, List.range_one, List.flatMap_cons, List.flatMap_nil,
      List.append_nil, demoBeam, List.getD_cons_zero, List.filterMap_cons, List.filterMap_nil]
    rw [hroots, hm]
    simp only [hkeep, Option.map_some]
    simp [row10, Crystal.G0, hkl]
  refine ⟨⟨[row24 c demoBeam m 0 0 ⟨1, 0, 0⟩ 1 t ++ [fin (0 : ℕ)],
      row24 c demoBeam m 0 0 ⟨1, 0, 0⟩ 1 t ++ [fin (1 : ℕ)]], peakColumns, demoBeam.waveVector,
      demoBeam.wavelength, m.axis, m, demoBeam⟩, ?_, rfl, ⟨rfl, rfl⟩, t, by rw [hm, ht]; field_simp, rfl⟩
  unfold diffractCore computePeaks
  have hk : c.mapKind = .torch := rfl
  simp only [hk, reduceCtorEq, false_and, if_false, hrows, List.length_cons, List.length_nil]
  norm_num
  simp only [extendRow_row10]
  have hill : illuminated demoBeam (row24 c demoBeam m 0 0 ⟨1, 0, 0⟩ 1 t) = true := by
    rw [illuminated_row24]
    apply demoBeam_contains
    rw [call1_nsq hax hT ho]
    exact hsc
  rw [List.filter_cons_of_pos hill, List.filter_cons_of_pos hill]
  simp [List.mapIdx_cons]

/-- lattice matrix of the scene: reflection (1,0,0) has `B hkl = (-3/5, 4/5, 1)` -/
noncomputable def sceneB : M3 := ⟨⟨-3/5, 0, 0⟩, ⟨4/5, 1, 0⟩, ⟨1, 0, 1⟩⟩
/-- a generator obeying the specification of `genhkl_all` for the lattice matrix `B`: (1,0,0) if its `sin θ / λ` is between the
limits -/
noncomputable def xOf (B : M3) : Xfab :=
  { formB := fun _ => B
    genhkl := fun _ lo hi _ => if lo ≤ norm (B.mulVec ⟨1, 0, 0⟩) / (4 * Real.pi) ∧
      norm (B.mulVec ⟨1, 0, 0⟩) / (4 * Real.pi) ≤ hi then [⟨1, 0, 0⟩] else []
    sfBatch := fun h _ _ _ => h.map fun _ => (1, 0) }
/-- the generator of the scene -/
noncomputable abbrev sceneX : Xfab := xOf sceneB
/-- one tetrahedron -/
def sceneCoord : List V3 := [⟨0, 0, 0⟩, ⟨1, 0, 0⟩, ⟨0, 2, 0⟩, ⟨0, 0, 3⟩]
noncomputable def sceneMesh : TetraMesh := TetraMesh.ofData sceneCoord [⟨0, 1, 2, 3⟩]
/-- its bounding sphere is centred near the origin (whichever of the three candidate spheres the code selects) -/
theorem scene_sphere : nsq (sceneMesh.espherecentroids.getD 0 0) < 100 := by
  have hs : sceneMesh.espherecentroids.getD 0 0 = (sphereOf ⟨⟨0, 0, 0⟩, ⟨1, 0, 0⟩, ⟨0, 2, 0⟩, ⟨0, 0, 3⟩⟩).1 := rfl
  rw [hs]
  set t : Tet := ⟨⟨0, 0, 0⟩, ⟨1, 0, 0⟩, ⟨0, 2, 0⟩, ⟨0, 0, 3⟩⟩ with ht
  have h3 : nsq (sphere4 t).1 < 100 := by
    simp only [sphere4, ht, norm_sq]
    norm_num [nsq, V3.dot, M3.inv, mulVec, M3.det, V3.cross]
  have hij : ∀ k : ℕ, pairTable.getD k (0, 1) ∈ pairTable := by
    intro k
    by_cases hk : k < 6
    · interval_cases k <;> decide
    · rw [List.getD_eq_default _ _ (by simp [pairTable]; omega)]; decide
  have main : ∀ ij ∈ pairTable, ∀ b : Bool,
      nsq (sphere2 (t.get ij.1) (t.get ij.2)).1 < 100 ∧
      nsq (sphere3 (t.get ij.1) (t.get ij.2) (if b then t.get (([0, 1, 2, 3].filter fun k => k ≠ ij.1 ∧ k ≠ ij.2).getD 0 0)
        else t.get (([0, 1, 2, 3].filter fun k => k ≠ ij.1 ∧ k ≠ ij.2).getD 1 0))).1 < 100 := by
    intro ij hij b
    simp only [pairTable, List.mem_cons, List.not_mem_nil, or_false] at hij
    rcases hij with rfl | rfl | rfl | rfl | rfl | rfl <;> cases b <;>
      simp [sphere2, sphere3, ht, Q4.get, norm_sq, nsq, V3.dot, V3.cross] <;> norm_num
  have hm := main _ (hij (argmax (sidesOf t)))
  unfold sphereOf
  dsimp only
  split_ifs with h1 h2 h4
  all_goals first | exact (hm true).1 | exact h3 | skip
  · simpa using (hm true).2
  · simpa using (hm false).2
/-- the phase without structure file -/
def scenePhase : Phase := Phase.new [1, 1, 1, 90, 90, 90] "P1" none
/-- a crystal of one unstrained element with lattice matrix `B` -/
noncomputable def polyOf (B : M3) : Polycrystal :=
  { meshLab := sceneMesh, meshSample := sceneMesh, orientationLab := [1], orientationSample := [1], strainLab := [0],
    strainSample := [0], phases := [scenePhase], mapKind := .torch, phaseMap := [0], eB := [B],
    meshVolumes := (elements sceneMesh.coord sceneMesh.enod).map tetVolume }
/-- the crystal of the scene -/
noncomputable abbrev scenePoly : Polycrystal := polyOf sceneB

theorem sceneMesh_new : TetraMesh.new sceneCoord [⟨0, 1, 2, 3⟩] = .ok sceneMesh := by
  unfold TetraMesh.new
  rw [if_pos, if_pos]
  · rfl
  · intro t ht
    simp [elements, Q4.map, sceneCoord] at ht
    subst ht
    simp [signedVolume, cross, V3.dot]
  · decide

theorem zero_feasible : Spec.Symmetric 0 ∧ Spec.Feasible 0 := by
  refine ⟨rfl, fun v hv => ?_⟩
  have h0 : dot v ((0 : M3).mulVec v) = 0 := by simp [mulVec, V3.dot]
  rw [h0]
  have := nsq_nonneg v
  rcases this.lt_or_eq with h | h
  · linarith
  · exact absurd (nsq_eq_zero.mp h.symm) hv

theorem bOfStrain_zero (B : M3) : bOfStrain 0 B = .ok B := by
  have h : cholesky (strainC 0) = .ok 1 := by
    have e : strainC 0 = 1 := by ext <;> simp [strainC]
    rw [e]
    apply cholesky_unique <;> first | simp | skip
    ext <;> simp [vecMul, tr, symL]
  unfold bOfStrain
  rw [h]
  dsimp only
  have : (1 : M3).tr.inv = 1 := by
    apply M3.inv_unique
    · rw [tr_one, det_one]; norm_num
    · rw [tr_one, mul_one']
  rw [this, one_mul']

/-- these crystals are built by the constructor -/
theorem polyOf_new (B : M3) :
    Polycrystal.new (xOf B) sceneMesh (.one 1) (.one 0) (.one scenePhase) (some [0]) = .ok (polyOf B) := by
  have hg : grainIndices [0] 0 = [0] := by simp [grainIndices, List.range_succ]
  have hl : sceneMesh.enod.length = 1 := rfl
  have h1 : (1 : M3).tr * (0 * 1) = 0 := by rw [tr_one, one_mul', mul_one']
  have hlab : labStrainToB [((0 : M3), (1 : M3))] B = .ok [B] := by
    unfold labStrainToB epsilonToBBatch
    rw [if_neg]
    · simp only [List.map, h1, batch, bOfStrain_zero]
    · rintro ⟨e, he, hn⟩
      simp only [List.map, h1, List.mem_cons, List.not_mem_nil, or_false] at he
      subst he
      exact feasible_no_neg zero_feasible.1 zero_feasible.2 hn
  have heB : instantiateEB (xOf B) 1 [1] [0] [scenePhase] [0] = .ok [B] := by
    unfold instantiateEB
    rw [if_neg]
    · unfold eBLoop eBStep
      dsimp only
      simp only [hg, List.map, List.getD_cons_zero, xOf, hlab]
      rfl
    · rintro ⟨i, hi, e, he, hle⟩
      simp only [List.length_singleton, Nat.lt_one_iff] at hi
      subst hi
      rw [hg] at he
      simp at he
      omega
  unfold Polycrystal.new
  dsimp only
  rw [hl]
  simp only [instantiateMat, instantiatePhase, PhasesArg.toList, List.replicate_one, heB]
  rfl

theorem scenePoly_new : Polycrystal.new sceneX sceneMesh (.one 1) (.one 0) (.one scenePhase) (some [0]) = .ok scenePoly :=
  polyOf_new sceneB

/-- diffraction of the scene with limits admitting the reflection -/
theorem scene_setup (lo hi : ℝ) (hlo : Real.sin lo ≤ Real.sqrt 2 / 2) (hhi : Real.sqrt 2 / 2 ≤ Real.sin hi) :
    scenePhase.setup sceneX demoBeam.wavelength lo hi = ⟨[1, 1, 1, 90, 90, 90], "P1", none, [⟨1, 0, 0⟩], none⟩ := by
  have hn : norm (sceneB.mulVec ⟨1, 0, 0⟩) = Real.sqrt 2 := by
    unfold V3.norm; congr 1; norm_num [sceneB, mulVec, nsq, V3.dot]
  have hp := Real.pi_pos
  have e : Real.sqrt 2 / (4 * Real.pi) = (Real.sqrt 2 / 2) / (2 * Real.pi) := by field_simp; ring
  have hc : Real.sin lo / (2 * Real.pi) ≤ Real.sqrt 2 / (4 * Real.pi) ∧ Real.sqrt 2 / (4 * Real.pi) ≤ Real.sin hi / (2 * Real.pi) := by
    rw [e]
    exact ⟨div_le_div_of_nonneg_right hlo (by positivity), div_le_div_of_nonneg_right hhi (by positivity)⟩
  unfold Phase.setup scenePhase Phase.new sceneX xOf demoBeam
  simp only [hn]
  rw [if_pos hc]

theorem scene_roots : laueRoots (rho0Factor ⟨1, 0, 0⟩ demoZ.axis) (rho1Factor ⟨1, 0, 0⟩ demoZ.axis) (rho2Factor ⟨1, 0, 0⟩ demoZ.axis)
      (getG 1 sceneB ⟨1, 0, 0⟩) = (fin (1/2), fin (1/2)) := by
  have e : getG 1 sceneB ⟨1, 0, 0⟩ = ⟨-3/5, 4/5, 1⟩ := by
    ext <;> simp [getG, sceneB, mulVec, vecMul, V3.dot]
  rw [e]; exact demo_tangent_roots

/-- The scene diffracts: two rows. -/
theorem scene_diffract (det : Option Detector) (lo hi lo' hi' : ℝ)
    (hb : scenePoly.limits demoBeam lo hi det = .ok (lo', hi'))
    (hlo : Real.sin lo' ≤ Real.sqrt 2 / 2) (hhi : Real.sqrt 2 / 2 ≤ Real.sin hi') :
    ∃ d p', scenePoly.diffract sceneX demoBeam demoZ lo hi det = .ok (d, p') ∧ d.columns = peakColumns ∧ ∃ row ∈ d.peaks,
      HasV d.columns row "G0_x" "G0_y" "G0_z" ⟨-3/5, 4/5, 1⟩ ∧ Has d.columns row "grain_index" (fin 0) ∧
      HasV d.columns row "h" "k" "l" ⟨1, 0, 0⟩ := by
  obtain ⟨d, hd, hcol, -, t, -, hpk⟩ := tangent_scene 1 sceneB (sceneMesh.espherecentroids.getD 0 0) (scenePoly.meshVolumes.getD 0 0)
    ⟨[1, 1, 1, 90, 90, 90], "P1", none, [⟨1, 0, 0⟩], none⟩ rfl rfl demoZ rfl norm_ez rfl rfl scene_sphere scene_roots
  refine ⟨d, { scenePoly with phases := [⟨[1, 1, 1, 90, 90, 90], "P1", none, [⟨1, 0, 0⟩], none⟩] }, ?_, hcol,
    _, by rw [hpk]; exact List.mem_cons_self, ?_, ?_, ?_⟩
  · unfold Polycrystal.diffract
    rw [hb]
    dsimp only
    have hph : scenePoly.setupPhases sceneX demoBeam.wavelength lo' hi' =
        { scenePoly with phases := [⟨[1, 1, 1, 90, 90, 90], "P1", none, [⟨1, 0, 0⟩], none⟩] } := by
      simp only [Polycrystal.setupPhases, scenePoly, polyOf, List.map]; rw [scene_setup lo' hi' hlo hhi]
    rw [hph]
    have hcr : Polycrystal.crystal { scenePoly with phases := [⟨[1, 1, 1, 90, 90, 90], "P1", none, [⟨1, 0, 0⟩], none⟩] } =
        ⟨.torch, [0], [⟨[1, 1, 1, 90, 90, 90], "P1", none, [⟨1, 0, 0⟩], none⟩], [1], [sceneB],
          [sceneMesh.espherecentroids.getD 0 0], [scenePoly.meshVolumes.getD 0 0]⟩ := rfl
    rw [hcr, hd]
  · rw [hcol]
    refine ⟨⟨7, rfl, ?_⟩, ⟨8, rfl, ?_⟩, ⟨9, rfl, ?_⟩⟩ <;>
      simp [row24, row10, Crystal.G0, getG, HKL.toV, sceneB, mulVec, vecMul, V3.dot]
  · rw [hcol]; exact ⟨0, rfl, by simp [row24, row10]⟩
  · rw [hcol]
    refine ⟨⟨2, rfl, ?_⟩, ⟨3, rfl, ?_⟩, ⟨4, rfl, ?_⟩⟩ <;> simp [row24, row10]

/-- C10 and C59 are not vacuous: the scene's crystal comes from the constructor with valid node indices. -/
example : Polycrystal.new sceneX sceneMesh (.one 1) (.one 0) (.one scenePhase) (some [0]) = .ok scenePoly ∧
    (∀ e ∈ sceneMesh.enod, ∀ i ∈ e.toList, i < sceneMesh.coord.length) ∧
    (∀ mt ∈ [(demoZ, (1/2 : ℝ)), (demoZ, 1)], norm mt.1.axis = 1) := by
  refine ⟨scenePoly_new, ?_, ?_⟩
  · show ∀ e ∈ ([⟨0, 1, 2, 3⟩] : List (Q4 ℕ)), ∀ i ∈ e.toList, i < sceneCoord.length
    decide
  · intro mt hmt; simp at hmt; rcases hmt with rfl | rfl <;> exact norm_ez

end XRD
