import Verif.Props.EndToEnd
import Verif.Props.SubSample
import Verif.Props.Strain

/-! Property C109: the strain of an element is read off exactly from the Bragg angle of each of its peaks. -/

namespace XRD
open V3 M3 Fl Spec
open scoped Classical

/-- the interplanar distance Bragg's law gives for the scattering angle `2θ` at a wavelength -/
noncomputable def braggSpacing (wavelength twoTheta : ℝ) : ℝ := wavelength / (2 * Real.sin (twoTheta / 2))

/-- the interplanar distance of the plane `hkl` of the unstrained cell, `2π / |B₀ hkl|` -/
noncomputable def cellSpacing (x : Xfab) (cell : List ℝ) (hkl : HKL) : ℝ := 2 * Real.pi / norm ((x.formB cell).mulVec ⟨hkl.h, hkl.k, hkl.l⟩)

/-- the strain along a direction: `n·ε n` for the unit vector `n` along `v` -/
noncomputable def strainAlong (e : M3) (v : V3) : ℝ := dot v (e.mulVec v) / nsq v

/-! ### the lattice matrix of an element always belongs to its present strain and orientation -/

theorem instantiateEB_bound {x : Xfab} {n : ℕ} {U S : List M3} {phs : List Phase} {pm : List ℝ} {eB : List M3}
    (h : instantiateEB x n U S phs pm = .ok eB) {i e : ℕ} (hi : i < phs.length) (he : pm[e]? = some (i : ℝ)) : e < n := by
  unfold instantiateEB at h
  split_ifs at h with hc
  push Not at hc
  exact hc i hi e (mem_grainIndices.mpr he)

theorem getD_map_zero {f : M3 → M3} (hf : f 0 = 0) (l : List M3) (e : ℕ) : (l.map f).getD e 0 = f (l.getD e 0) := by
  rw [List.getD_eq_getElem?_getD, List.getD_eq_getElem?_getD, List.getElem?_map]
  cases l[e]? <;> simp [hf]

/-- whatever happened to the crystal, the lattice matrix of an element is that of its present strain, turned to its crystal frame -/
theorem program_lattice {x : Xfab} {p : Polycrystal} (hp : Program x p) : ∀ (i : ℕ) ph, p.phases[i]? = some ph → ∀ e,
    p.phaseMap[e]? = some (i : ℝ) →
    ∃ B, bOfStrain ((p.orientationLab.getD e 0).tr * (p.strainLab.getD e 0 * p.orientationLab.getD e 0)) (x.formB ph.unitCell) = .ok B ∧
      p.eB[e]? = some B := by
  have hset : ∀ {p : Polycrystal} (_ : ∀ (i : ℕ) ph, p.phases[i]? = some ph → ∀ e, p.phaseMap[e]? = some (i : ℝ) →
      ∃ B, bOfStrain ((p.orientationLab.getD e 0).tr * (p.strainLab.getD e 0 * p.orientationLab.getD e 0)) (x.formB ph.unitCell) = .ok B ∧
        p.eB[e]? = some B) (wl lo hi : ℝ), ∀ (i : ℕ) ph, (p.setupPhases x wl lo hi).phases[i]? = some ph → ∀ e,
      p.phaseMap[e]? = some (i : ℝ) →
      ∃ B, bOfStrain ((p.orientationLab.getD e 0).tr * (p.strainLab.getD e 0 * p.orientationLab.getD e 0)) (x.formB ph.unitCell) = .ok B ∧
        p.eB[e]? = some B := by
    intro p ih wl lo hi i ph h e he
    simp only [Polycrystal.setupPhases, List.getElem?_map, Option.map_eq_some_iff] at h
    obtain ⟨q, hq, rfl⟩ := h
    have : (q.setup x wl lo hi).unitCell = q.unitCell := by unfold Phase.setup; dsimp only; split <;> rfl
    rw [this]; exact ih i q hq e he
  induction hp with
  | new hm hf hp =>
    obtain ⟨U, S, kind, pm, eB, hU, hS, hph, heB, rfl⟩ := Polycrystal.new_ok hp
    intro i ph h e he
    have hi := (List.getElem?_eq_some_iff.mp h).1
    exact (eB_value heB).2.2 i ph h e (instantiateEB_bound heB hi he) he
  | transform hp a T o w m hm ha t ih =>
    intro i ph h e he
    obtain ⟨B, h1, h2⟩ := ih i ph h e he
    refine ⟨B, ?_, h2⟩
    rename_i p
    obtain ⟨rfl, -, -, -⟩ := Motion.new_ok hm
    have hR := (call1_affRot ⟨a, w, T, o⟩ (by exact ha) t).1
    show bOfStrain (((p.orientationLab.map fun U => rotMat a (w * t) * U).getD e 0).tr *
      ((p.strainLab.map fun s => rotMat a (w * t) * s * (rotMat a (w * t)).tr).getD e 0 *
        (p.orientationLab.map fun U => rotMat a (w * t) * U).getD e 0)) (x.formB ph.unitCell) = .ok B
    change IsRot (rotMat a (w * t)) at hR
    generalize rotMat a (w * t) = R at hR
    rw [getD_map_zero (by ext <;> simp [vecMul]), getD_map_zero (by ext <;> simp [vecMul])]
    rw [← h1]
    congr 1
    generalize p.orientationLab.getD e 0 = U
    generalize p.strainLab.getD e 0 = S
    rw [tr_mul, mul_assoc', mul_assoc', mul_assoc', ← mul_assoc' R.tr, hR.1, one_mul', ← mul_assoc' R.tr, hR.1, one_mul']
  | diffract hp b m lo hi det d p' h ih =>
    obtain ⟨lo', hi', -, rfl, -⟩ := Polycrystal.diffract_ok h
    exact hset ih _ _ _
  | failed hp b m lo hi lo' hi' det e h hl ih => exact hset ih _ _ _

/-! ### the strained lattice matrix and the lengths of reciprocal vectors -/

theorem bOfStrain_length {e B0 B : M3} (hs : Symmetric e) (h : bOfStrain e B0 = .ok B) (v : V3) :
    nsq (B0.mulVec v) = nsq (B.mulVec v) + 2 * dot (B.mulVec v) (e.mulVec (B.mulVec v)) := by
  unfold bOfStrain at h
  split at h
  · cases h
  rename_i L hL
  obtain rfl := Except.ok.inj h
  obtain ⟨h1, h2, h3, h4, p1, p2, p3⟩ := cholesky_spec hL
  rw [symL_of_symm (strainC_symm hs)] at h1
  have hd : L.tr.det ≠ 0 := by
    rw [det_tr, tri_det h2 h3 h4]; positivity
  have e1 : B0.mulVec v = L.tr.mulVec ((L.tr.inv * B0).mulVec v) := by
    rw [← mulVec_mul, ← mul_assoc', mul_inv hd, one_mul']
  generalize (L.tr.inv * B0).mulVec v = w at e1 ⊢
  rw [← quad_strainC, ← h1, mulVec_mul, M3.dot_mulVec, ← e1]
  rfl

theorem bOfStrain_feasible {e B0 B : M3} (hs : Symmetric e) (h : bOfStrain e B0 = .ok B) : Feasible e := by
  rw [feasible_iff_cholesky hs]
  unfold bOfStrain at h
  split at h
  · cases h
  · rename_i L hL; exact ⟨L, hL⟩

theorem conj_quad {U e : M3} (hU : U.tr * U = 1) (w : V3) :
    dot w ((U.tr * (e * U)).mulVec w) = dot (U.mulVec w) (e.mulVec (U.mulVec w)) := by
  rw [mulVec_mul, mulVec_mul, M3.dot_mulVec, tr_tr]

/-- what a row of the table says about the strain of its element, before Bragg's law is applied -/
theorem row_strain {x : Xfab} (hx : ∀ h cell sg cif, (x.sfBatch h cell sg cif).length = h.length) {p : Polycrystal} (hp : Program x p)
    {b : Beam} {m : Motion} {lo hi : ℝ} {det : Option Detector} {d : PeaksDict} {p' : Polycrystal}
    (hd : p.diffract x b m lo hi det = .ok (d, p')) {row : List Fl} (hrow : row ∈ d.peaks) {e i : ℕ} {hkl : HKL} {G0 : V3}
    (he : Has d.columns row "grain_index" (fin e)) (hi' : Has d.columns row "phase_number" (fin i))
    (hh : HasV d.columns row "h" "k" "l" ⟨hkl.h, hkl.k, hkl.l⟩) (hG : HasV d.columns row "G0_x" "G0_y" "G0_z" G0)
    (hU : IsRot (p.orientationLab.getD e 0)) (hs : Symmetric (p.strainLab.getD e 0)) :
    ∃ ph, p.phases[i]? = some ph ∧ 0 < norm G0 ∧ 0 < nsq G0 + 2 * dot G0 ((p.strainLab.getD e 0).mulVec G0) ∧
      nsq ((x.formB ph.unitCell).mulVec ⟨hkl.h, hkl.k, hkl.l⟩) = nsq G0 + 2 * dot G0 ((p.strainLab.getD e 0).mulVec G0) := by
  obtain ⟨lo', hi'', hl, rfl, hc⟩ := Polycrystal.diffract_ok hd
  have hcons := program_consistent hx hp b.wavelength lo' hi''
  rw [diffract_columns hc] at he hi' hh hG
  obtain ⟨e', i', ph, n, hkl', wt, t, idx, hr, hf, hill, rfl⟩ := mem_diffract hcons hc hrow
  have hG' := hasV_row24 hG
  have k0 := (has_iff 0 rfl).mp he
  have k1 := (has_iff 1 rfl).mp hi'
  have k2 := (has_iff 2 rfl).mp hh.1
  have k3 := (has_iff 3 rfl).mp hh.2.1
  have k4 := (has_iff 4 rfl).mp hh.2.2
  simp [row24, HKL.toV] at k0 k1 k2 k3 k4
  obtain ⟨h, k, l⟩ := hkl
  obtain ⟨h', k', l'⟩ := hkl'
  simp only at k2 k3 k4
  subst k0 k1 k2 k3 k4
  rw [← vectorOf_eq] at hG' hf
  have h2 : (p.phases.map fun ph => ph.setup x b.wavelength lo' hi'')[i']? = some ph := hr.phase
  rw [List.getElem?_map, Option.map_eq_some_iff] at h2
  obtain ⟨q, hq, rfl⟩ := h2
  have hpm : p.phaseMap[e']? = some (i' : ℝ) := hr.inPhase
  obtain ⟨B, hB, hB2⟩ := program_lattice hp i' q hq e' hpm
  have hBe : p.eB.getD e' 0 = B := by rw [List.getD_eq_getElem?_getD, hB2]; rfl
  have hsc : Symmetric ((p.orientationLab.getD e' 0).tr * (p.strainLab.getD e' 0 * p.orientationLab.getD e' 0)) := crystal_symm hs
  have key := bOfStrain_length hsc hB ⟨h', k', l'⟩
  rw [conj_quad hU.1, ← IsRot.nsq_mulVec hU.1 (B.mulVec _)] at key
  unfold Polycrystal.vectorOf at hG' hf
  rw [hBe] at hG' hf
  dsimp only at hG' hf key ⊢
  rw [← hG'] at key hf
  have hne : G0 ≠ 0 := by
    rintro rfl
    unfold Found at hf
    rw [laueRoots_nan (by simp [V3.dot, nsq])] at hf
    simp [laueTime, keepTime] at hf
  refine ⟨q, hq, V3.norm_pos.2 hne, ?_, key⟩
  have hw0 : B.mulVec ⟨h', k', l'⟩ ≠ 0 := by
    intro h0
    apply hne
    rw [hG', h0]
    ext <;> simp [mulVec, V3.dot]
  have := bOfStrain_feasible hsc hB _ hw0
  rw [conj_quad hU.1, ← IsRot.nsq_mulVec hU.1 (B.mulVec _), ← hG'] at this
  exact this

/-- **C109** Whatever a program did with the crystal before, each peak shows the present strain of its element exactly: the interplanar
distance Bragg's law gives for its `2theta` is the distance of the plane `hkl` in the unstrained cell times `√(1 + 2 n·ε n)`, `ε` the
element's present strain and `n` the direction of the peak's `G0` columns. -/
theorem C109_spacing_shows_strain (x : Xfab) (hx : ∀ h cell sg cif, (x.sfBatch h cell sg cif).length = h.length) (p : Polycrystal)
    (hp : Program x p) (qh : Qhull) (vs : List V3) (dir pol : V3) (wl : ℝ) (b : Beam) (hb : Beam.new qh vs dir wl pol = .ok b)
    (hwl : 0 < wl) (a T o : V3) (w : ℝ) (m : Motion) (hm : Motion.new a w T o = .ok m) (ha : norm a = 1) (lo hi : ℝ)
    (det : Option Detector) (d : PeaksDict) (p' : Polycrystal) (hd : p.diffract x b m lo hi det = .ok (d, p')) (row : List Fl)
    (hrow : row ∈ d.peaks) (e i : ℕ) (hkl : HKL) (G0 : V3) (tt : ℝ) (he : Has d.columns row "grain_index" (fin e))
    (hi' : Has d.columns row "phase_number" (fin i)) (hh : HasV d.columns row "h" "k" "l" ⟨hkl.h, hkl.k, hkl.l⟩)
    (hG : HasV d.columns row "G0_x" "G0_y" "G0_z" G0) (ht : Has d.columns row "2theta" (fin tt))
    (hU : IsRot (p.orientationLab.getD e 0)) (hs : Symmetric (p.strainLab.getD e 0)) :
    ∃ ph, p.phases[i]? = some ph ∧ 0 < cellSpacing x ph.unitCell hkl ∧ 0 < 1 + 2 * strainAlong (p.strainLab.getD e 0) G0 ∧
      braggSpacing wl tt = cellSpacing x ph.unitCell hkl * Real.sqrt (1 + 2 * strainAlong (p.strainLab.getD e 0) G0) := by
  obtain ⟨ph, h1, h2, h4, h3⟩ := row_strain hx hp hd hrow he hi' hh hG hU hs
  obtain ⟨-, ⟨tt', G0', g1, g2, g3, g4, g5⟩, -, -⟩ :=
    C04_diffract x hx p hp qh vs dir pol wl b hb hwl a T o w m hm ha lo hi det d p' hd row hrow
  have hcol : d.columns = peakColumns := by
    obtain ⟨lo', hi'', hl, rfl, hc⟩ := Polycrystal.diffract_ok hd
    exact diffract_columns hc
  rw [hcol] at g1 g2 ht hG
  obtain rfl := hasV_unique hG g2
  obtain rfl : tt = tt' := Fl.fin.inj (Option.some.inj (((has_iff 22 rfl).mp ht).symm.trans ((has_iff 22 rfl).mp g1)))
  have hpi := Real.pi_pos
  have hn : nsq G0 = norm G0 ^ 2 := (V3.norm_sq G0).symm
  have hn0 : 0 < nsq G0 := by rw [hn]; positivity
  have hB := h4
  rw [← h3] at hB
  have hB' : 0 < norm ((x.formB ph.unitCell).mulVec ⟨hkl.h, hkl.k, hkl.l⟩) := by
    rw [V3.norm_pos]
    intro h0; rw [h0] at hB; simp [nsq, V3.dot] at hB
  have hS : 1 + 2 * strainAlong (p.strainLab.getD e 0) G0 =
      (norm ((x.formB ph.unitCell).mulVec ⟨hkl.h, hkl.k, hkl.l⟩) / norm G0) ^ 2 := by
    unfold strainAlong
    rw [div_pow, V3.norm_sq, V3.norm_sq, h3]
    field_simp
  refine ⟨ph, h1, by unfold cellSpacing; positivity, by rw [hS]; positivity, ?_⟩
  rw [hS, Real.sqrt_sq (by positivity)]
  unfold braggSpacing cellSpacing
  rw [g5]
  field_simp
  norm_num

/-- the strain along a direction of an equal strain in all directions -/
theorem strainAlong_hydrostatic (c : ℝ) {v : V3} (hv : v ≠ 0) : strainAlong (c • (1 : M3)) v = c := by
  have h0 : nsq v ≠ 0 := fun h => hv (nsq_eq_zero.mp h)
  unfold strainAlong
  rw [div_eq_iff h0]
  simp [mulVec, V3.dot, nsq]; ring

/-- **C109**, inverted: the strain along the diffraction vector is computed from the two distances; it is positive exactly when the peak's
distance is larger than that of the unstrained cell, negative exactly when it is smaller, and the linear formula `(d - d₀) / d₀` never
exceeds it, being equal only without strain along that direction. -/
theorem C109_strain_from_spacing (x : Xfab) (hx : ∀ h cell sg cif, (x.sfBatch h cell sg cif).length = h.length) (p : Polycrystal)
    (hp : Program x p) (qh : Qhull) (vs : List V3) (dir pol : V3) (wl : ℝ) (b : Beam) (hb : Beam.new qh vs dir wl pol = .ok b)
    (hwl : 0 < wl) (a T o : V3) (w : ℝ) (m : Motion) (hm : Motion.new a w T o = .ok m) (ha : norm a = 1) (lo hi : ℝ)
    (det : Option Detector) (d : PeaksDict) (p' : Polycrystal) (hd : p.diffract x b m lo hi det = .ok (d, p')) (row : List Fl)
    (hrow : row ∈ d.peaks) (e i : ℕ) (hkl : HKL) (G0 : V3) (tt : ℝ) (he : Has d.columns row "grain_index" (fin e))
    (hi' : Has d.columns row "phase_number" (fin i)) (hh : HasV d.columns row "h" "k" "l" ⟨hkl.h, hkl.k, hkl.l⟩)
    (hG : HasV d.columns row "G0_x" "G0_y" "G0_z" G0) (ht : Has d.columns row "2theta" (fin tt))
    (hU : IsRot (p.orientationLab.getD e 0)) (hs : Symmetric (p.strainLab.getD e 0)) :
    ∃ ph, p.phases[i]? = some ph ∧
      strainAlong (p.strainLab.getD e 0) G0 = ((braggSpacing wl tt / cellSpacing x ph.unitCell hkl) ^ 2 - 1) / 2 ∧
      (0 < strainAlong (p.strainLab.getD e 0) G0 ↔ cellSpacing x ph.unitCell hkl < braggSpacing wl tt) ∧
      (strainAlong (p.strainLab.getD e 0) G0 < 0 ↔ braggSpacing wl tt < cellSpacing x ph.unitCell hkl) ∧
      (braggSpacing wl tt - cellSpacing x ph.unitCell hkl) / cellSpacing x ph.unitCell hkl ≤ strainAlong (p.strainLab.getD e 0) G0 ∧
      ((braggSpacing wl tt - cellSpacing x ph.unitCell hkl) / cellSpacing x ph.unitCell hkl = strainAlong (p.strainLab.getD e 0) G0 ↔
        strainAlong (p.strainLab.getD e 0) G0 = 0) := by
  obtain ⟨ph, h1, h2, h3, h4⟩ := C109_spacing_shows_strain x hx p hp qh vs dir pol wl b hb hwl a T o w m hm ha lo hi det d p' hd row hrow
    e i hkl G0 tt he hi' hh hG ht hU hs
  refine ⟨ph, h1, ?_⟩
  rw [h4]
  generalize strainAlong (p.strainLab.getD e 0) G0 = s at h3
  generalize cellSpacing x ph.unitCell hkl = c at h2
  have hr := Real.sqrt_pos.mpr h3
  have hq := Real.sq_sqrt h3.le
  set r := Real.sqrt (1 + 2 * s)
  have e1 : c * r / c = r := by field_simp
  have e2 : (c * r - c) / c = r - 1 := by field_simp
  rw [e1, e2]
  have hs' : s = (r ^ 2 - 1) / 2 := by linarith
  refine ⟨hs', ?_, ?_, ?_, ?_⟩
  · constructor
    · intro h; nlinarith
    · intro h
      have : 1 < r := by by_contra hc; push Not at hc; nlinarith
      nlinarith
  · constructor
    · intro h
      have : r < 1 := by by_contra hc; push Not at hc; nlinarith
      nlinarith
    · intro h
      have : r < 1 := by by_contra hc; push Not at hc; nlinarith
      nlinarith
  · nlinarith [sq_nonneg (r - 1)]
  · constructor
    · intro h
      have : (r - 1) ^ 2 = 0 := by rw [hs'] at h; nlinarith
      have : r - 1 = 0 := by exact pow_eq_zero_iff (two_ne_zero) |>.mp this
      rw [hs', show r = 1 by linarith]; norm_num
    · intro h
      rw [h] at hq ⊢
      have : (r - 1) * (r + 1) = 0 := by ring_nf; linarith
      rcases mul_eq_zero.mp this with h' | h' <;> linarith

/-! ### a strained crystal -/

/-- one element strained by about one per cent in all directions: `1 + 2 ε = 1.01²` -/
noncomputable def swollen : M3 := (201 / 20000 : ℝ) • (1 : M3)

theorem swollen_lattice (B : M3) : bOfStrain swollen ((101 / 100 : ℝ) • B) = .ok B := by
  have h : cholesky (strainC swollen) = .ok ((101 / 100 : ℝ) • 1) := by
    apply cholesky_unique <;> first | (simp; done) | (norm_num; done) | skip
    ext <;> simp [vecMul, tr, symL, strainC, swollen] <;> norm_num
  unfold bOfStrain
  rw [h]
  dsimp only
  have : ((101 / 100 : ℝ) • (1 : M3)).tr.inv = (100 / 101 : ℝ) • 1 := by
    apply M3.inv_unique
    · simp [det, tr]
    · ext <;> simp [vecMul, tr]
  rw [this]
  congr 1
  ext <;> simp [vecMul] <;> ring

theorem swollen_feasible : Symmetric swollen ∧ Feasible swollen := by
  refine ⟨by ext <;> simp [swollen, tr], ?_⟩
  intro v hv
  have h0 : 0 < nsq v := lt_of_le_of_ne (nsq_nonneg v) (fun h => hv (nsq_eq_zero.mp h.symm))
  have : dot v (swollen.mulVec v) = 201 / 20000 * nsq v := by simp [swollen, mulVec, V3.dot, nsq]; ring
  rw [this]; linarith

/-- the strained crystal: its lattice matrix is that of the scene, its unstrained cell is smaller -/
noncomputable def swollenPoly : Polycrystal :=
  { scenePoly with strainLab := [swollen], strainSample := [swollen] }

theorem swollenPoly_new : Polycrystal.new (xOf ((101 / 100 : ℝ) • sceneB)) sceneMesh (.one 1) (.one swollen) (.one scenePhase)
    (some [0]) = .ok swollenPoly := by
  have hg : grainIndices [0] 0 = [0] := by simp [grainIndices, List.range_succ]
  have hl : sceneMesh.enod.length = 1 := rfl
  have h1 : (1 : M3).tr * (swollen * 1) = swollen := by rw [tr_one, one_mul', mul_one']
  have hlab : labStrainToB [(swollen, (1 : M3))] ((101 / 100 : ℝ) • sceneB) = .ok [sceneB] := by
    unfold labStrainToB epsilonToBBatch
    rw [if_neg]
    · simp only [List.map, h1, batch, swollen_lattice]
    · rintro ⟨e, he, hn⟩
      simp only [List.map, h1, List.mem_cons, List.not_mem_nil, or_false] at he
      subst he
      exact feasible_no_neg swollen_feasible.1 swollen_feasible.2 hn
  have heB : instantiateEB (xOf ((101 / 100 : ℝ) • sceneB)) 1 [1] [swollen] [scenePhase] [0] = .ok [sceneB] := by
    unfold instantiateEB
    rw [if_neg]
    · unfold eBLoop eBStep
      dsimp only
      simp only [hg, List.map, List.getD_cons_zero, xOf, hlab]
      rfl
    · rintro ⟨i, hi, e, he, hle⟩
      simp only [List.length_singleton, Nat.lt_one_iff] at hi
      subst hi
      rw [hg] at he
      simp at he
      omega
  unfold Polycrystal.new
  dsimp only
  rw [hl]
  simp only [instantiateMat, instantiatePhase, PhasesArg.toList, List.replicate_one, heB]
  rfl

theorem swollen_setup (lo : ℝ) (hlo : Real.sin lo ≤ 101 / 100 * Real.sqrt 2 / 2) :
    scenePhase.setup (xOf ((101 / 100 : ℝ) • sceneB)) demoBeam.wavelength lo (Real.pi / 2) =
    ⟨[1, 1, 1, 90, 90, 90], "P1", none, [⟨1, 0, 0⟩], none⟩ := by
  have hn : norm (((101 / 100 : ℝ) • sceneB).mulVec ⟨1, 0, 0⟩) = 101 / 100 * Real.sqrt 2 := by
    unfold V3.norm
    rw [show (101 / 100 : ℝ) = Real.sqrt ((101 / 100) ^ 2) from (Real.sqrt_sq (by norm_num)).symm, ← Real.sqrt_mul (by norm_num)]
    congr 1
    rw [Real.sqrt_sq (by norm_num)]
    norm_num [sceneB, mulVec, nsq, V3.dot]
  have hp := Real.pi_pos
  have h2 : Real.sqrt 2 < 3 / 2 := by rw [Real.sqrt_lt' (by norm_num)]; norm_num
  have hc : Real.sin lo / (2 * Real.pi) ≤ 101 / 100 * Real.sqrt 2 / (4 * Real.pi) ∧
      101 / 100 * Real.sqrt 2 / (4 * Real.pi) ≤ Real.sin (Real.pi / 2) / (2 * Real.pi) := by
    rw [Real.sin_pi_div_two]
    constructor
    · rw [div_le_div_iff₀ (by positivity) (by positivity)]
      nlinarith
    · rw [div_le_div_iff₀ (by positivity) (by positivity)]
      nlinarith
  unfold Phase.setup scenePhase Phase.new xOf demoBeam
  simp only [hn]
  rw [if_pos hc]

theorem swollen_diffract (lo : ℝ) (hlo : Real.sin lo ≤ 101 / 100 * Real.sqrt 2 / 2) :
    ∃ d p', swollenPoly.diffract (xOf ((101 / 100 : ℝ) • sceneB)) demoBeam demoZ lo (Real.pi / 2) none = .ok (d, p') ∧
    d.columns = peakColumns ∧ ∃ row ∈ d.peaks, HasV d.columns row "G0_x" "G0_y" "G0_z" ⟨-3/5, 4/5, 1⟩ ∧
      Has d.columns row "grain_index" (fin 0) ∧ Has d.columns row "phase_number" (fin 0) ∧ HasV d.columns row "h" "k" "l" ⟨1, 0, 0⟩ := by
  obtain ⟨d, hd, hcol, -, t, -, hpk⟩ := tangent_scene 1 sceneB (sceneMesh.espherecentroids.getD 0 0) (scenePoly.meshVolumes.getD 0 0)
    ⟨[1, 1, 1, 90, 90, 90], "P1", none, [⟨1, 0, 0⟩], none⟩ rfl rfl demoZ rfl norm_ez rfl rfl scene_sphere scene_roots
  refine ⟨d, { swollenPoly with phases := [⟨[1, 1, 1, 90, 90, 90], "P1", none, [⟨1, 0, 0⟩], none⟩] }, ?_, hcol,
    _, by rw [hpk]; exact List.mem_cons_self, ?_, ?_, ?_, ?_⟩
  · unfold Polycrystal.diffract
    simp only [Polycrystal.limits]
    have hph : swollenPoly.setupPhases (xOf ((101 / 100 : ℝ) • sceneB)) demoBeam.wavelength lo (Real.pi / 2) =
        { swollenPoly with phases := [⟨[1, 1, 1, 90, 90, 90], "P1", none, [⟨1, 0, 0⟩], none⟩] } := by
      simp only [Polycrystal.setupPhases, swollenPoly, scenePoly, polyOf, List.map]; rw [swollen_setup lo hlo]
    rw [hph]
    have hcr : Polycrystal.crystal { swollenPoly with phases := [⟨[1, 1, 1, 90, 90, 90], "P1", none, [⟨1, 0, 0⟩], none⟩] } =
        ⟨.torch, [0], [⟨[1, 1, 1, 90, 90, 90], "P1", none, [⟨1, 0, 0⟩], none⟩], [1], [sceneB],
          [sceneMesh.espherecentroids.getD 0 0], [scenePoly.meshVolumes.getD 0 0]⟩ := rfl
    rw [hcr, hd]
  · rw [hcol]
    refine ⟨⟨7, rfl, ?_⟩, ⟨8, rfl, ?_⟩, ⟨9, rfl, ?_⟩⟩ <;>
      simp [row24, row10, Crystal.G0, getG, HKL.toV, sceneB, mulVec, vecMul, V3.dot]
  · rw [hcol]; exact ⟨0, rfl, by simp [row24, row10]⟩
  · rw [hcol]; exact ⟨1, rfl, by simp [row24, row10]⟩
  · rw [hcol]
    refine ⟨⟨2, rfl, ?_⟩, ⟨3, rfl, ?_⟩, ⟨4, rfl, ?_⟩⟩ <;> simp [row24, row10]

theorem program_swollen : Program (xOf ((101 / 100 : ℝ) • sceneB)) swollenPoly :=
  .new sceneMesh_new (by
    intro f hf
    simp only [PhasesArg.toList, List.mem_singleton] at hf
    subst hf; exact ⟨_, _, _, rfl⟩) swollenPoly_new

/-- C109 is not vacuous: a crystal strained by one per cent, after it was diffracted once, still shows peaks; its orientation is a rotation
and its strain symmetric, and the strain along the diffraction vector of a peak is one per cent. -/
example : ∃ d p' row, Program (xOf ((101 / 100 : ℝ) • sceneB)) p' ∧
    swollenPoly.diffract (xOf ((101 / 100 : ℝ) • sceneB)) demoBeam demoZ 0 (Real.pi / 2) none = .ok (d, p') ∧
    row ∈ d.peaks ∧ Has d.columns row "grain_index" (fin 0) ∧ Has d.columns row "phase_number" (fin 0) ∧
    IsRot (p'.orientationLab.getD 0 0) ∧ Symmetric (p'.strainLab.getD 0 0) ∧ strainAlong (p'.strainLab.getD 0 0) ⟨-3/5, 4/5, 1⟩ = 201 / 20000 := by
  obtain ⟨d, p', h, hcol, row, hr, h1, h2, h3, h4⟩ := swollen_diffract 0 (by simp; positivity)
  refine ⟨d, p', row, .diffract program_swollen _ _ _ _ _ _ _ h, h, hr, h2, h3, ?_⟩
  obtain ⟨lo', hi', hl, rfl, -⟩ := Polycrystal.diffract_ok h
  refine ⟨M3.isRot_one, swollen_feasible.1, strainAlong_hydrostatic _ ?_⟩
  intro h0
  have := congrArg V3.z h0
  simp at this

end XRD
