import Verif.Props.World

/-! Property C38, and a worked transform for C12. -/

namespace XRD
open V3 M3 Fl Spec
open scoped Classical

/-- the reflection generator respects its two `sin θ / λ` limits (`1/(2d) = |B hkl| / (4π)`) -/
def Spec.GenhklRange (x : Xfab) : Prop := ∀ cell lo hi sg, ∀ h ∈ x.genhkl cell lo hi sg,
  lo ≤ norm ((x.formB cell).mulVec ⟨h.h, h.k, h.l⟩) / (4 * Real.pi) ∧
  norm ((x.formB cell).mulVec ⟨h.h, h.k, h.l⟩) / (4 * Real.pi) ≤ hi

theorem arcsin_bounds {θ lo hi : ℝ} (h0 : 0 ≤ θ) (h1 : θ ≤ Real.pi / 2) (hlo : 0 ≤ lo) (hlo1 : lo ≤ Real.pi / 2)
    (hhi0 : 0 ≤ hi) (hhi : hi ≤ Real.pi / 2) (a : Real.sin lo ≤ Real.sin θ) (b : Real.sin θ ≤ Real.sin hi) : lo ≤ θ ∧ θ ≤ hi := by
  have hp := Real.pi_pos
  constructor
  · by_contra h
    push Not at h
    exact absurd a (not_le.mpr (Real.sin_lt_sin_of_lt_of_le_pi_div_two (by linarith) hlo1 h))
  · by_contra h
    push Not at h
    exact absurd b (not_le.mpr (Real.sin_lt_sin_of_lt_of_le_pi_div_two (by linarith) h1 h))

/-- every peak of an unstrained crystal has its Bragg angle between the limits in effect -/
theorem bragg_between (q : Qhull) (vs : List V3) (dir pol : V3) (wl : ℝ) (b : Beam)
    (hb : Beam.new q vs dir wl pol = .ok b) (hwl : 0 < wl)
    (a T o : V3) (w : ℝ) (m : Motion) (hm : Motion.new a w T o = .ok m) (ha : norm a = 1)
    (x : Xfab) (hx : ∀ h cell sg cif, (x.sfBatch h cell sg cif).length = h.length) (hgen : Spec.GenhklRange x)
    (mesh : TetraMesh) (ori : MatArg) (ph : PhasesArg) (map : Option (List ℝ)) (p : Polycrystal)
    (hp : Polycrystal.new x mesh ori (.one 0) ph map = .ok p) (hU : ∀ U ∈ p.orientationLab, IsRot U)
    (hph : ∀ f ∈ p.phases, f.Fresh)
    (hist : List (Motion × ℝ)) (hu : ∀ mt ∈ hist, norm mt.1.axis = 1)
    (lo hi : ℝ) (det : Option Detector) (d : PeaksDict) (p' : Polycrystal)
    (hd : (p.transforms hist).diffract x b m lo hi det = .ok (d, p')) (lo' hi' : ℝ)
    (hlim : (p.transforms hist).limits b lo hi det = .ok (lo', hi'))
    (row : List Fl) (hrow : row ∈ d.peaks) :
    ∃ tt : ℝ, Has d.columns row "2theta" (fin tt) ∧ 0 ≤ tt ∧ tt ≤ Real.pi ∧
      Real.sin lo' ≤ Real.sin (tt / 2) ∧ Real.sin (tt / 2) ≤ Real.sin hi' := by
  obtain ⟨f, R, hf, t1, t2, t3, t4, t5, t6, t7, t8, t9, t10, t11, t12, t13, t14⟩ := p.transforms_state hist hu
  obtain ⟨lo'', hi'', hlim', rfl, hcore⟩ := Polycrystal.diffract_ok hd
  rw [hlim] at hlim'
  obtain ⟨rfl, rfl⟩ := Prod.mk.injEq _ _ _ _ ▸ Except.ok.inj hlim'
  set cr := ((p.transforms hist).setupPhases x b.wavelength lo' hi').crystal with hcr
  have hcons : ∀ ph ∈ cr.phases, ph.Consistent := by
    intro ph' hmem
    obtain ⟨ph0, h0, rfl⟩ := List.mem_map.mp hmem
    exact Phase.setup_consistent hx (hph _ (t12 ▸ h0)) _ _ _
  obtain ⟨tt, G0, k1, k2, k3, k4, k5⟩ := C04_two_theta_obeys_bragg q vs dir pol wl b hb hwl cr a T o w m d hm ha hcons hcore row hrow
  refine ⟨tt, k1, k3, k4, ?_⟩
  rw [k5]
  obtain ⟨e, i, n, phs, hkl, wt, c1, c2, c3, c4, c5, c6, c7, c8, c9⟩ := C42_peaks_use_own_phase cr b m d hcons hcore row hrow
  rw [diffract_columns hcore] at *
  have ev : ∀ (nm : String) (k : ℕ) (_ : peakColumns[k]? = some nm) (a b : ℝ), Has peakColumns row nm (fin a) →
      Has peakColumns row nm (fin b) → a = b := by
    intro nm k hk a b ha hb
    have hkk : ∀ v, Has peakColumns row nm v → row[k]? = some v := by
      rintro v ⟨j, hj, hv⟩
      have hnd : peakColumns.Nodup := by decide
      have hjk : j = k := by
        obtain ⟨hj1, hj2⟩ := List.getElem?_eq_some_iff.mp hj
        obtain ⟨hk1, hk2⟩ := List.getElem?_eq_some_iff.mp hk
        exact (hnd.getElem_inj_iff).mp (hj2.trans hk2.symm)
      rw [← hjk]; exact hv
    have h1 := hkk _ ha; have h2 := hkk _ hb
    rw [h1] at h2
    injection h2 with h2
    injection h2
  have hG : G0 = (cr.orientation.getD e 0).mulVec ((cr.eB.getD e 0).mulVec ⟨hkl.h, hkl.k, hkl.l⟩) :=
    V3.ext (ev _ 7 rfl _ _ k2.1 c9.1) (ev _ 8 rfl _ _ k2.2.1 c9.2.1) (ev _ 9 rfl _ _ k2.2.2 c9.2.2)
  -- the phase before set-up
  have hphs : ∃ ph0, p.phases[i]? = some ph0 ∧ phs = ph0.setup x b.wavelength lo' hi' := by
    have : cr.phases = p.phases.map fun ph => ph.setup x b.wavelength lo' hi' := by
      rw [hcr]; simp [Polycrystal.crystal, Polycrystal.setupPhases, t12]
    rw [this, List.getElem?_map, Option.map_eq_some_iff] at c4
    obtain ⟨ph0, h1, h2⟩ := c4
    exact ⟨ph0, h1, h2.symm⟩
  obtain ⟨ph0, hph0, rfl⟩ := hphs
  have c3' : p.phaseMap[e]? = some (i : ℝ) := by rw [← t13]; exact c3
  have hlen := C59_constructor_broadcasts x mesh ori (.one 0) ph map p hp
  -- lattice matrix and orientation of the element
  have hs0 : ∀ s ∈ p.strainLab, s = 0 := by
    obtain ⟨U', S', kind, pm, eB, hU', hS', hph', heB, rfl⟩ := Polycrystal.new_ok hp
    intro s hs
    simp only [instantiateMat, Except.ok.injEq] at hS'
    rw [← hS'] at hs
    exact List.eq_of_mem_replicate hs
  have hen : e < mesh.enod.length := by
    obtain ⟨U', S', kind, pm, eB, hU', hS', hph', heB, rfl⟩ := Polycrystal.new_ok hp
    unfold instantiateEB at heB
    split_ifs at heB with hc
    push Not at hc
    exact hc i (List.getElem?_eq_some_iff.mp hph0).1 e (mem_grainIndices.mpr c3')
  have hU1 : ∃ U, p.orientationLab[e]? = some U := ⟨_, List.getElem?_eq_getElem (by rw [hlen.2.2.2.2.1]; exact hen)⟩
  have hS1 : ∃ S, p.strainLab[e]? = some S := ⟨_, List.getElem?_eq_getElem (by rw [hlen.2.2.2.2.2.1]; exact hen)⟩
  obtain ⟨U, hUe⟩ := hU1
  obtain ⟨S, hSe⟩ := hS1
  have hS0 := hs0 S (List.mem_of_getElem? hSe)
  obtain ⟨B, hB, hBe⟩ := C59_lattice_matrix_of_own_phase x mesh ori (.one 0) ph map p hp
    (fun s hs => by rw [hs0 s hs]; exact zero_feasible.1) hU e i U S ph0 c3' hph0 hUe hSe
  have hBeq : B = x.formB ph0.unitCell := by
    have hz : U.tr * (S * U) = 0 := by rw [hS0]; ext <;> simp [vecMul, V3.dot]
    rw [hz] at hBe
    unfold epsilonToB at hBe
    rw [bOfStrain_zero] at hBe
    split_ifs at hBe
    exact (Except.ok.inj hBe).symm
  have e1 : cr.eB.getD e 0 = x.formB ph0.unitCell := by
    have : cr.eB = p.eB := t8
    rw [this, List.getD_eq_getElem?_getD, hB, hBeq]; rfl
  have e2 : cr.orientation.getD e 0 = R * U := by
    have : cr.orientation = p.orientationLab.map (R * ·) := t5
    rw [this, List.getD_eq_getElem?_getD, List.getElem?_map, hUe]; rfl
  have hrot := hU U (List.mem_of_getElem? hUe)
  have hn : norm G0 = norm ((x.formB ph0.unitCell).mulVec ⟨hkl.h, hkl.k, hkl.l⟩) := by
    rw [hG, e1, e2, mulVec_mul]
    unfold V3.norm
    rw [IsRot.nsq_mulVec hf.1.1, IsRot.nsq_mulVec hrot.1]
  have hmil : hkl ∈ x.genhkl ph0.unitCell (Real.sin lo' / b.wavelength) (Real.sin hi' / b.wavelength) ph0.sgname := by
    have := List.mem_of_getElem? c5
    unfold Phase.setup at this
    dsimp only at this
    split at this <;> exact this
  have hw : b.wavelength = wl := by
    exact (Beam.new_ok hb).2.2.2.2.1
  obtain ⟨g1, g2⟩ := hgen _ _ _ _ _ hmil
  rw [hw] at g1 g2
  rw [hn]
  have hp4 : 0 < 4 * Real.pi := by have := Real.pi_pos; positivity
  constructor
  · rw [div_le_div_iff₀ hwl hp4] at g1; rw [le_div_iff₀ hp4]; exact g1
  · rw [div_le_div_iff₀ hp4 hwl] at g2; rw [div_le_iff₀ hp4]; exact g2

/-- C38, proved part: without a detector, every peak of an unstrained crystal (after any history of transforms) has its Bragg
angle between the user's limits; with a detector the lower limit is respected, and the upper one is the detector's wrapping cone.
Missing: the user's upper limit is dropped when a detector is passed (`C38_user_maximum_ignored_fails`), and a strained element's
Bragg angle may leave the limits, which are applied to the unstrained lattice. -/
theorem C38_bragg_limits_partial (q : Qhull) (vs : List V3) (dir pol : V3) (wl : ℝ) (b : Beam)
    (hb : Beam.new q vs dir wl pol = .ok b) (hwl : 0 < wl)
    (a T o : V3) (w : ℝ) (m : Motion) (hm : Motion.new a w T o = .ok m) (ha : norm a = 1)
    (x : Xfab) (hx : ∀ h cell sg cif, (x.sfBatch h cell sg cif).length = h.length) (hgen : Spec.GenhklRange x)
    (mesh : TetraMesh) (ori : MatArg) (ph : PhasesArg) (map : Option (List ℝ)) (p : Polycrystal)
    (hp : Polycrystal.new x mesh ori (.one 0) ph map = .ok p) (hU : ∀ U ∈ p.orientationLab, IsRot U)
    (hph : ∀ f ∈ p.phases, f.Fresh)
    (hist : List (Motion × ℝ)) (hu : ∀ mt ∈ hist, norm mt.1.axis = 1)
    (lo hi : ℝ) (hlo : 0 ≤ lo) (hlohi : lo ≤ hi) (hhi : hi ≤ Real.pi / 2) (det : Option Detector) (d : PeaksDict) (p' : Polycrystal)
    (hd : (p.transforms hist).diffract x b m lo hi det = .ok (d, p'))
    (row : List Fl) (hrow : row ∈ d.peaks) :
    ∃ tt : ℝ, Has d.columns row "2theta" (fin tt) ∧ lo ≤ tt / 2 ∧ (det = none → tt / 2 ≤ hi) ∧
      (∀ D, det = some D → ∃ c, D.wrappingCone b.waveVector ((p.transforms hist).sourcePoint b) = fin c ∧ tt / 2 ≤ c) := by
  obtain ⟨lo', hi', hlim, -, -⟩ := Polycrystal.diffract_ok hd
  obtain ⟨tt, h1, h2, h3, h4, h5⟩ := bragg_between q vs dir pol wl b hb hwl a T o w m hm ha x hx hgen mesh ori ph map p hp hU hph
    hist hu lo hi det d p' hd lo' hi' hlim row hrow
  have hpi := Real.pi_pos
  refine ⟨tt, h1, ?_⟩
  unfold Polycrystal.limits at hlim
  cases det with
  | none =>
    obtain ⟨rfl, rfl⟩ := Prod.mk.injEq _ _ _ _ ▸ Except.ok.inj hlim
    have := arcsin_bounds (θ := tt / 2) (by linarith) (by linarith) hlo (by linarith) (by linarith) hhi h4 h5
    exact ⟨this.1, fun _ => this.2, fun D hD => by cases hD⟩
  | some D =>
    dsimp only at hlim
    unfold Polycrystal.braggBounds at hlim
    split at hlim
    · rename_i c hc
      split_ifs at hlim with g1 g2
      obtain ⟨rfl, rfl⟩ := Prod.mk.injEq _ _ _ _ ▸ Except.ok.inj hlim
      have hk : b.waveVector ≠ 0 := by
        intro h0
        have := Beam.norm_wave hb hwl
        rw [h0] at this
        have h' : V3.norm 0 = 0 := V3.norm_eq_zero.mpr rfl
        rw [h'] at this
        have : 0 < 2 * Real.pi / wl := by positivity
        linarith
      have hc2 : c ≤ Real.pi / 2 := by
        have hv := (wrappingCone_val hk hc).2
        have : 2 * c ≤ Real.pi := by
          simp only [List.mem_cons, List.not_mem_nil, or_false] at hv
          rcases hv with h | h | h | h <;> rw [h] <;> exact Real.arccos_le_pi _
        linarith
      have := arcsin_bounds (θ := tt / 2) (by linarith) (by linarith) hlo (by linarith) (by linarith) hc2 h4 h5
      exact ⟨this.1, fun h => (by cases h), fun D' hD' => by obtain rfl := Option.some.inj hD'; exact ⟨c, hc, this.2⟩⟩
    · cases hlim

theorem scene_coord_x {p : V3} (h : p ∈ sceneMesh.coord) : 0 ≤ p.x := by
  have : sceneMesh.coord = sceneCoord := rfl
  rw [this, sceneCoord] at h
  simp only [List.mem_cons, List.not_mem_nil, or_false] at h
  rcases h with rfl | rfl | rfl | rfl <;> norm_num

theorem sum_x_nonneg (l : List V3) (h : ∀ p ∈ l, 0 ≤ p.x) : 0 ≤ (l.sum).x := by
  induction l with
  | nil => simp
  | cons a l ih =>
    rw [List.sum_cons, V3.add_x]
    exact add_nonneg (h a List.mem_cons_self) (ih fun p hp => h p (List.mem_cons_of_mem _ hp))

theorem scene_limits : ∃ c, scenePoly.limits demoBeam 0 (Real.pi / 18) (some backDet) = .ok (0, c) ∧ Real.pi / 4 ≤ c ∧ c ≤ Real.pi / 2 := by
  have hsx : 0 ≤ (scenePoly.sourcePoint demoBeam).x := by
    have hall : ∀ p ∈ sceneMesh.coord, demoBeam.contains p := by
      intro p hp
      apply demoBeam_contains
      have : sceneMesh.coord = sceneCoord := rfl
      rw [this, sceneCoord] at hp
      simp only [List.mem_cons, List.not_mem_nil, or_false] at hp
      rcases hp with rfl | rfl | rfl | rfl <;> norm_num [nsq, V3.dot]
    have hne : (scenePoly.meshLab.coord.filter fun q => demoBeam.contains q) ≠ [] := by
      have h0 : (⟨0, 0, 0⟩ : V3) ∈ sceneMesh.coord := by show _ ∈ sceneCoord; simp [sceneCoord]
      exact List.ne_nil_of_mem (List.mem_filter.mpr ⟨h0, by simpa using hall _ h0⟩)
    have : scenePoly.sourcePoint demoBeam = meanV (scenePoly.meshLab.coord.filter fun q => demoBeam.contains q) := if_pos hne
    rw [this]
    unfold meanV
    rw [V3.smul_x]
    exact mul_nonneg (by positivity) (sum_x_nonneg _ fun p hp => scene_coord_x (List.mem_filter.mp hp).1)
  set src := scenePoly.sourcePoint demoBeam with hsrc
  have hpi := Real.pi_pos
  have hx : ∀ c ∈ [backDet.c0, backDet.c1, backDet.c2, backDet.c2 + (backDet.c1 - backDet.c0)], c.x = -1 := by
    intro c hc
    simp only [List.mem_cons, List.not_mem_nil, or_false] at hc
    rcases hc with rfl | rfl | rfl | rfl <;> simp [backDet]
  have hne : ∀ c ∈ [backDet.c0, backDet.c1, backDet.c2, backDet.c2 + (backDet.c1 - backDet.c0)], c ≠ src := by
    intro c hc h
    have := hx c hc
    rw [h] at this; linarith
  obtain ⟨w, hw⟩ := wrappingCone_exists ex_ne_zero hne
  have hv := wrappingCone_val ex_ne_zero hw
  have hge : Real.pi / 4 ≤ w := by
    have h1 := (hv.1 backDet.c0 (by simp)).2
    have hc0 := hx backDet.c0 (by simp)
    have : Real.pi / 2 ≤ angle ⟨1, 0, 0⟩ (backDet.c0 - src) := by
      unfold angle
      rw [← Real.arccos_zero]
      apply Real.arccos_le_arccos
      apply div_nonpos_of_nonpos_of_nonneg
      · simp only [V3.dot, V3.sub_x, V3.sub_y, V3.sub_z]; rw [hc0]; linarith
      · exact mul_nonneg (V3.norm_nonneg _) (V3.norm_nonneg _)
    linarith
  have hle : w ≤ Real.pi / 2 := by
    have hv2 := hv.2
    have : 2 * w ≤ Real.pi := by
      simp only [List.mem_cons, List.not_mem_nil, or_false] at hv2
      rcases hv2 with h | h | h | h <;> rw [h] <;> exact Real.arccos_le_pi _
    linarith
  refine ⟨w, ?_, hge, hle⟩
  unfold Polycrystal.limits Polycrystal.braggBounds
  rw [← hsrc]
  have : demoBeam.waveVector = ⟨1, 0, 0⟩ := rfl
  dsimp only
  rw [this, hw]
  dsimp only
  rw [if_pos le_rfl, if_pos (by linarith)]

/-- C38 is false when a detector is passed: with `max_bragg_angle` 10 degrees a peak at 45 degrees is returned. -/
theorem C38_user_maximum_ignored_fails : ∃ (x : Xfab) (p p' : Polycrystal) (b : Beam) (m : Motion) (D : Detector) (d : PeaksDict)
    (row : List Fl) (tt : ℝ),
    Spec.GenhklRange x ∧ Polycrystal.new x sceneMesh (.one 1) (.one 0) (.one scenePhase) (some [0]) = .ok p ∧
    (∃ q vs dir wl pol, Beam.new q vs dir wl pol = .ok b) ∧
    Motion.new m.axis m.angle m.translation m.origin = .ok m ∧
    p.diffract x b m 0 (deg 10) (some D) = .ok (d, p') ∧ row ∈ d.peaks ∧
    Has d.columns row "2theta" (fin tt) ∧ tt / 2 = deg 45 := by
  have hpi := Real.pi_pos
  obtain ⟨c, hl, h1, h2⟩ := scene_limits
  have hs : Real.sin (Real.pi / 4) = Real.sqrt 2 / 2 := Real.sin_pi_div_four
  obtain ⟨d, p', hd, hcol, row, hrow, hG, -, -⟩ := scene_diffract (some backDet) 0 (Real.pi / 18) 0 c hl
    (by rw [Real.sin_zero]; positivity) (by rw [← hs]; exact Real.sin_le_sin_of_le_of_le_pi_div_two (by linarith) h2 h1)
  obtain ⟨lo', hi', -, hp', hcore⟩ := Polycrystal.diffract_ok hd
  have hcons : ∀ ph ∈ p'.crystal.phases, ph.Consistent := by
    intro ph hph
    rw [hp'] at hph
    obtain ⟨ph0, h0, rfl⟩ := List.mem_map.mp hph
    apply Phase.setup_consistent (by intros; simp [xOf])
    simp only [polyOf, List.mem_singleton] at h0
    subst h0; intro _; rfl
  obtain ⟨tt, G0, k1, k2, k3, k4, k5⟩ := C04_two_theta_obeys_bragg _ _ _ _ _ demoBeam demoBeam_new (by positivity) p'.crystal _ _ _ _
    demoZ d demoZ_new norm_ez hcons hcore row hrow
  have hdeg : deg 10 = Real.pi / 18 := by unfold deg; ring
  refine ⟨sceneX, scenePoly, p', demoBeam, demoZ, backDet, d, row, tt, ?_, scenePoly_new, ⟨_, _, _, _, _, demoBeam_new⟩, demoZ_new, by rw [hdeg]; exact hd, hrow,
    k1, ?_⟩
  · intro cell lo hi sg h hh
    simp only [xOf] at hh ⊢
    split_ifs at hh with hc
    · simp only [List.mem_singleton] at hh
      subst hh
      simpa using hc
    · simp at hh
  · rw [hcol] at hG k2
    have gx : ∀ {nm : String} (k : ℕ) (_ : peakColumns[k]? = some nm) {a b : ℝ}, peakColumns.idxOf nm = k → Has peakColumns row nm (fin a) →
        Has peakColumns row nm (fin b) → a = b := by
      intro nm k hk a b _ ha hb
      have hkk : ∀ v, Has peakColumns row nm v → row[k]? = some v := by
        rintro v ⟨j, hj, hv⟩
        have hnd : peakColumns.Nodup := by decide
        have hjk : j = k := by
          obtain ⟨hj1, hj2⟩ := List.getElem?_eq_some_iff.mp hj
          obtain ⟨hk1, hk2⟩ := List.getElem?_eq_some_iff.mp hk
          exact (hnd.getElem_inj_iff).mp (hj2.trans hk2.symm)
        rw [← hjk]; exact hv
      have h1 := hkk _ ha; have h2 := hkk _ hb
      rw [h1] at h2
      injection h2 with h2
      injection h2
    have hGe : G0 = ⟨-3/5, 4/5, 1⟩ := V3.ext (gx 7 rfl (by decide) k2.1 hG.1) (gx 8 rfl (by decide) k2.2.1 hG.2.1)
      (gx 9 rfl (by decide) k2.2.2 hG.2.2)
    have hn : norm G0 = Real.sqrt 2 := by rw [hGe]; unfold V3.norm; congr 1; norm_num [nsq, V3.dot]
    rw [hn] at k5
    have hsin : Real.sin (tt / 2) = Real.sin (Real.pi / 4) := by rw [k5, hs]; field_simp; ring
    have := Real.injOn_sin (x₁ := tt / 2) (x₂ := Real.pi / 4) ⟨by linarith, by linarith⟩ ⟨by linarith, by linarith⟩ hsin
    rw [this]; unfold deg; ring

/-- quarter turn about the beam -/
noncomputable def quarterX : Motion := ⟨⟨1, 0, 0⟩, Real.pi / 2, 0, 0⟩
/-- rotation about `-y` during the exposure -/
noncomputable def demoMinusY : Motion := ⟨⟨0, -1, 0⟩, Real.pi / 2, 0, 0⟩

/-- C12 is not vacuous: the scene's crystal diffracts before and after a quarter turn about the beam, with the same element and
reflection, and the diffraction vector is turned. -/
example : ∃ d1 p1 d2 p2 row1 row2,
    scenePoly.diffract sceneX demoBeam demoZ 0 (Real.pi / 2) none = .ok (d1, p1) ∧
    (scenePoly.transform quarterX 1).diffract sceneX demoBeam demoMinusY 0 (Real.pi / 2) none = .ok (d2, p2) ∧
    row1 ∈ d1.peaks ∧ row2 ∈ d2.peaks ∧ Has d1.columns row1 "grain_index" (fin 0) ∧ Has d2.columns row2 "grain_index" (fin 0) ∧
    HasV d1.columns row1 "h" "k" "l" ⟨1, 0, 0⟩ ∧ HasV d2.columns row2 "h" "k" "l" ⟨1, 0, 0⟩ ∧
    HasV d1.columns row1 "G0_x" "G0_y" "G0_z" ⟨-3/5, 4/5, 1⟩ ∧ HasV d2.columns row2 "G0_x" "G0_y" "G0_z" ⟨-3/5, -1, 4/5⟩ := by
  have h2 : Real.sqrt 2 / 2 ≤ 1 := by
    have : Real.sqrt 2 ≤ 2 := by rw [Real.sqrt_le_left (by norm_num)]; norm_num
    linarith
  have hs0 : Real.sin 0 ≤ Real.sqrt 2 / 2 := by rw [Real.sin_zero]; positivity
  have hs1 : Real.sqrt 2 / 2 ≤ Real.sin (Real.pi / 2) := by rw [Real.sin_pi_div_two]; exact h2
  obtain ⟨d1, p1, hd1, hcol1, row1, hr1, hG1, hg1, hk1⟩ := scene_diffract none 0 (Real.pi / 2) 0 (Real.pi / 2) rfl hs0 hs1
  have hax : norm (⟨1, 0, 0⟩ : V3) = 1 := by rw [norm_eq_one]; simp [nsq, V3.dot]
  have hay : norm (⟨0, -1, 0⟩ : V3) = 1 := by rw [norm_eq_one]; simp [nsq, V3.dot]
  set R := rotMat quarterX.axis (quarterX.angle * 1) with hR
  have hRv : R = ⟨⟨1, 0, 0⟩, ⟨0, 0, -1⟩, ⟨0, 1, 0⟩⟩ := by
    rw [hR]; unfold quarterX; rw [mul_one]
    ext <;> simp [rotMat, crossMat, crossMat2, vecMul, Real.sin_pi_div_two, Real.cos_pi_div_two]
  have hGv : getG (R * 1) sceneB ⟨1, 0, 0⟩ = ⟨-3/5, -1, 4/5⟩ := by
    rw [hRv, mul_one']
    ext <;> norm_num [getG, sceneB, mulVec, vecMul, V3.dot]
  have hroots : laueRoots (rho0Factor ⟨1, 0, 0⟩ demoMinusY.axis) (rho1Factor ⟨1, 0, 0⟩ demoMinusY.axis)
      (rho2Factor ⟨1, 0, 0⟩ demoMinusY.axis) (getG (R * 1) sceneB ⟨1, 0, 0⟩) = (fin (1/2), fin (1/2)) := by
    rw [hGv]
    have q0 : (rho0Factor ⟨1, 0, 0⟩ demoMinusY.axis).dot ⟨-3/5, -1, 4/5⟩ = -3/5 := by
      norm_num [rho0Factor, demoMinusY, vecMul, crossMat2, crossMat, V3.dot]
    have q1 : (rho1Factor ⟨1, 0, 0⟩ demoMinusY.axis).dot ⟨-3/5, -1, 4/5⟩ = -4/5 := by
      norm_num [rho1Factor, demoMinusY, vecMul, crossMat2, crossMat, V3.dot]
    have q2 : (rho2Factor ⟨1, 0, 0⟩ demoMinusY.axis).dot ⟨-3/5, -1, 4/5⟩ = 0 := by
      norm_num [rho2Factor, demoMinusY, vecMul, crossMat2, crossMat, V3.dot]
    have hn : nsq (⟨-3/5, -1, 4/5⟩ : V3) = 2 := by norm_num [nsq, V3.dot]
    rw [laueRoots_ne (by rw [q0, q2, hn]; norm_num)]
    simp only [q0, q1, q2, hn]
    norm_num
  set sc := quarterX.call1 (sceneMesh.espherecentroids.getD 0 0) 1 with hsc
  have hscn : nsq sc < 100 := by rw [hsc, call1_nsq hax rfl rfl]; exact scene_sphere
  obtain ⟨d2, hd2, hcol2, -, t, -, hpk⟩ := tangent_scene (R * 1) sceneB sc (scenePoly.meshVolumes.getD 0 0)
    ⟨[1, 1, 1, 90, 90, 90], "P1", none, [⟨1, 0, 0⟩], none⟩ rfl rfl demoMinusY rfl hay rfl rfl hscn hroots
  have hdd : ∃ p2, (scenePoly.transform quarterX 1).diffract sceneX demoBeam demoMinusY 0 (Real.pi / 2) none = .ok (d2, p2) := by
    refine ⟨(scenePoly.transform quarterX 1).setupPhases sceneX demoBeam.wavelength 0 (Real.pi / 2), ?_⟩
    unfold Polycrystal.diffract Polycrystal.limits
    dsimp only
    have hcr : ((scenePoly.transform quarterX 1).setupPhases sceneX demoBeam.wavelength 0 (Real.pi / 2)).crystal =
        ⟨.torch, [0], [⟨[1, 1, 1, 90, 90, 90], "P1", none, [⟨1, 0, 0⟩], none⟩], [R * 1], [sceneB],
          [sc], [scenePoly.meshVolumes.getD 0 0]⟩ := by
      have hset := scene_setup 0 (Real.pi / 2) hs0 hs1
      simp only [Polycrystal.crystal, Polycrystal.setupPhases, Polycrystal.transform, polyOf, List.map, hset]
      rfl
    rw [hcr, hd2]
  obtain ⟨p2, hd2'⟩ := hdd
  refine ⟨d1, p1, d2, p2, row1, _, hd1, hd2', hr1, by rw [hpk]; exact List.mem_cons_self, hg1, ?_, hk1, ?_, hG1, ?_⟩
  · rw [hcol2]; exact ⟨0, rfl, by simp [row24, row10]⟩
  · rw [hcol2]
    refine ⟨⟨2, rfl, ?_⟩, ⟨3, rfl, ?_⟩, ⟨4, rfl, ?_⟩⟩ <;> simp [row24, row10]
  · rw [hcol2]
    have hG0 : ∀ c : Crystal, c.orientation = [R * 1] → c.eB = [sceneB] → c.G0 0 ⟨1, 0, 0⟩ = ⟨-3/5, -1, 4/5⟩ := by
      intro c h1 h2
      unfold Crystal.G0
      rw [h1, h2]
      have : HKL.toV ⟨1, 0, 0⟩ = ⟨1, 0, 0⟩ := by simp [HKL.toV]
      rw [this]; exact hGv
    refine ⟨⟨7, rfl, ?_⟩, ⟨8, rfl, ?_⟩, ⟨9, rfl, ?_⟩⟩ <;> simp [row24, row10, hG0]

end XRD
