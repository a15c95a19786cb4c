import Verif.Props.Rings

/-! Property C115: unstrained samples give sharp powder rings. -/

namespace XRD
open V3 M3 Fl Spec
open scoped Classical

/-- the scattering angle Bragg's law gives for an interplanar distance at a wavelength -/
noncomputable def ringAngle (wavelength spacing : ℝ) : ℝ := 2 * Real.arcsin (wavelength / (2 * spacing))

theorem ringAngle_of_spacing {wl tt s : ℝ} (hwl : 0 < wl) (h0 : 0 ≤ tt) (h1 : tt ≤ Real.pi) (hs : 0 < s) (h : braggSpacing wl tt = s) :
    tt = ringAngle wl s := by
  have hn : Real.sin (tt / 2) ≠ 0 := by
    intro h0
    unfold braggSpacing at h
    rw [h0] at h
    simp at h
    linarith
  have e : wl / (2 * s) = Real.sin (tt / 2) := by
    rw [← h]; unfold braggSpacing; field_simp
  unfold ringAngle
  rw [e, Real.arcsin_sin (by linarith) (by linarith)]
  ring

theorem strainAlong_zero (v : V3) : strainAlong 0 v = 0 := by
  unfold strainAlong
  simp [mulVec, V3.dot]

theorem has_pre {row : List Fl} {nm : String} {v : Fl} (k : ℕ)
    (hk : (peakColumns ++ ["zd", "yd", "incident_angle", "frame", "intensity_factors"])[k]? = some nm)
    (h : Has (peakColumns ++ ["zd", "yd", "incident_angle", "frame", "intensity_factors"]) row nm v) : row[k]? = some v := by
  obtain ⟨j, hj, hv⟩ := h
  obtain ⟨b0, e0⟩ := List.getElem?_eq_some_iff.mp hk
  obtain ⟨b1, e1⟩ := List.getElem?_eq_some_iff.mp hj
  have hnd : (peakColumns ++ ["zd", "yd", "incident_angle", "frame", "intensity_factors"]).Nodup := by decide
  have : j = k := (hnd.getElem_inj_iff).mp (by rw [e0, e1])
  rw [← this]; exact hv

/-- **C115** Whatever a program did with the crystal before, a peak of an element without strain has exactly the scattering angle Bragg's law
gives for its plane of the unit cell: the angle depends on the wavelength, the cell and `hkl`, and not on the orientation of the element, its
place, the motion or the time. -/
theorem C115_two_theta_of_cell (x : Xfab) (hx : ∀ h cell sg cif, (x.sfBatch h cell sg cif).length = h.length) (p : Polycrystal)
    (hp : Program x p) (qh : Qhull) (vs : List V3) (dir pol : V3) (wl : ℝ) (b : Beam) (hb : Beam.new qh vs dir wl pol = .ok b)
    (hwl : 0 < wl) (a T o : V3) (w : ℝ) (m : Motion) (hm : Motion.new a w T o = .ok m) (ha : norm a = 1) (lo hi : ℝ)
    (det : Option Detector) (d : PeaksDict) (p' : Polycrystal) (hd : p.diffract x b m lo hi det = .ok (d, p')) (row : List Fl)
    (hrow : row ∈ d.peaks) (e i : ℕ) (hkl : HKL) (he : Has d.columns row "grain_index" (fin e))
    (hi' : Has d.columns row "phase_number" (fin i)) (hh : HasV d.columns row "h" "k" "l" ⟨hkl.h, hkl.k, hkl.l⟩)
    (hU : IsRot (p.orientationLab.getD e 0)) (hs : p.strainLab.getD e 0 = 0) :
    ∃ ph, p.phases[i]? = some ph ∧ Has d.columns row "2theta" (fin (ringAngle wl (cellSpacing x ph.unitCell hkl))) := by
  obtain ⟨-, ⟨tt, G0, g1, g2, g3, g4, -⟩, -, -⟩ :=
    C04_diffract x hx p hp qh vs dir pol wl b hb hwl a T o w m hm ha lo hi det d p' hd row hrow
  obtain ⟨ph, h1, h2, h3, h4⟩ := C109_spacing_shows_strain x hx p hp qh vs dir pol wl b hb hwl a T o w m hm ha lo hi det d p' hd row hrow
    e i hkl G0 tt he hi' hh g2 g1 hU (by rw [hs]; ext <;> rfl)
  rw [hs, strainAlong_zero] at h4
  refine ⟨ph, h1, ?_⟩
  rw [← ringAngle_of_spacing hwl g3 g4 h2 (by rw [h4]; simp)]
  exact g1

/-- **C115**, on a detector: when the sides of the detector are orthogonal to the beam, every hit of an element without strain lies on the
ring of radius `L tan (2 arcsin (λ / 2d))` around the beam axis through its source point, `L` being the distance from the source point to the
detector plane along the beam. -/
theorem C115_ring_radius (x : Xfab) (hx : ∀ h cell sg cif, (x.sfBatch h cell sg cif).length = h.length) (p : Polycrystal)
    (hp : Program x p) (qh : Qhull) (vs : List V3) (dir pol : V3) (wl : ℝ) (b : Beam) (hb : Beam.new qh vs dir wl pol = .ok b)
    (hwl : 0 < wl) (a T o : V3) (w : ℝ) (m : Motion) (hm : Motion.new a w T o = .ok m) (ha : norm a = 1) (lo hi : ℝ)
    (det : Option Detector) (d : PeaksDict) (p' : Polycrystal) (hd : p.diffract x b m lo hi det = .ok (d, p'))
    (c0 c1 c2 : V3) (np : PixArg ℤ) (ps : PixArg ℝ) (sg th : ℝ) (mr : ℤ) (fl fp fs : Bool) (D : Detector)
    (hD : Detector.new c0 c1 c2 np ps sg th mr fl fp fs = .ok D) (ho : dot (c2 - c0) (c1 - c0) = 0)
    (h1 : dot dir (c1 - c0) = 0) (h2 : dot dir (c2 - c0) = 0) (frames : ℤ) (row : List Fl)
    (hrow : row ∈ (D.peaksIntersection d frames).peaks) (e i : ℕ) (hkl : HKL)
    (he : Has (D.peaksIntersection d frames).columns row "grain_index" (fin e))
    (hi' : Has (D.peaksIntersection d frames).columns row "phase_number" (fin i))
    (hh : HasV (D.peaksIntersection d frames).columns row "h" "k" "l" ⟨hkl.h, hkl.k, hkl.l⟩)
    (hU : IsRot (p.orientationLab.getD e 0)) (hs : p.strainLab.getD e 0 = 0) :
    ∃ (ph : Phase) (zd yd : ℝ) (S : V3), p.phases[i]? = some ph ∧ Has (D.peaksIntersection d frames).columns row "zd" (fin zd) ∧
      Has (D.peaksIntersection d frames).columns row "yd" (fin yd) ∧
      HasV (D.peaksIntersection d frames).columns row "Source_x" "Source_y" "Source_z" S ∧
      norm (perp dir (pointAt c0 c1 c2 zd yd - S)) =
        dot ((1 / norm dir) • dir) (c0 - S) * Real.tan (ringAngle wl (cellSpacing x ph.unitCell hkl)) := by
  obtain ⟨zd, yd, tt, S, k1, k2, k3, k4, -, -, -, -, k5⟩ := C110_hits_on_rings x hx p hp qh vs dir pol wl b hb hwl a T o w m hm ha lo hi det d p' hd
    c0 c1 c2 np ps sg th mr fl fp fs D hD ho frames row hrow
  have hcol : d.columns = peakColumns := by
    obtain ⟨_, _, _, rfl, hc⟩ := Polycrystal.diffract_ok hd
    exact diffract_columns hc
  have hgood : ∀ q ∈ d.peaks, Spec.GoodRow q := by
    obtain ⟨lo', hi', hl, rfl, hc⟩ := Polycrystal.diffract_ok hd
    exact (diffract_good _ b m d (program_consistent hx hp b.wavelength lo' hi') hc).2
  have hcol' : (D.peaksIntersection d frames).columns = peakColumns ++ ["zd", "yd", "incident_angle", "frame", "intensity_factors"] := by
    show d.columns ++ _ = _; rw [hcol]
  have hrow' := hrow
  rw [peaksIntersection_rows D d frames (fun q hq => (hgood q hq).1)] at hrow'
  obtain ⟨q, hq, rfl⟩ := List.mem_map.mp hrow'
  have hq := (List.mem_filter.mp hq).1
  have hlen : q.length = 25 := (hgood q hq).1
  have pre : ∀ k : ℕ, k < 25 → (row30 D frames q)[k]? = q[k]? := by
    intro k hk
    unfold row30
    rw [List.getElem?_append_left (by simp [hlen]; omega), List.getElem?_append_left (by simp [hlen]; omega), List.getElem?_append_left (by omega)]
  have t1 : Has d.columns q "grain_index" (fin e) := by
    rw [hcol]; rw [hcol'] at he
    exact (has_iff 0 rfl).mpr (by rw [← pre 0 (by omega)]; exact has_pre 0 rfl he)
  have t2 : Has d.columns q "phase_number" (fin i) := by
    rw [hcol]; rw [hcol'] at hi'
    exact (has_iff 1 rfl).mpr (by rw [← pre 1 (by omega)]; exact has_pre 1 rfl hi')
  have t3 : HasV d.columns q "h" "k" "l" ⟨hkl.h, hkl.k, hkl.l⟩ := by
    rw [hcol]; rw [hcol'] at hh
    exact ⟨(has_iff 2 rfl).mpr (by rw [← pre 2 (by omega)]; exact has_pre 2 rfl hh.1),
      (has_iff 3 rfl).mpr (by rw [← pre 3 (by omega)]; exact has_pre 3 rfl hh.2.1),
      (has_iff 4 rfl).mpr (by rw [← pre 4 (by omega)]; exact has_pre 4 rfl hh.2.2)⟩
  obtain ⟨ph, g1, g2⟩ := C115_two_theta_of_cell x hx p hp qh vs dir pol wl b hb hwl a T o w m hm ha lo hi det d p' hd q hq e i hkl t1 t2 t3 hU hs
  have htt : tt = ringAngle wl (cellSpacing x ph.unitCell hkl) := by
    rw [hcol'] at k3
    rw [hcol] at g2
    have e1 : (row30 D frames q)[22]? = some (fin tt) := has_pre 22 rfl k3
    rw [pre 22 (by omega)] at e1
    exact Fl.fin.inj (Option.some.inj (e1.symm.trans ((has_iff 22 rfl).mp g2)))
  refine ⟨ph, zd, yd, S, g1, k1, k2, k4, ?_⟩
  rw [← htt]
  exact k5 h1 h2

/-- **C115**, sharpness: take any two crystals made with the same cell library, whatever was done with them before, of any orientation, at any
place, in any two beams of the same wavelength and any two motions.  Peaks of the same plane of equal unit cells, from elements without
strain, have the same scattering angle. -/
theorem C115_same_ring (x : Xfab) (hx : ∀ h cell sg cif, (x.sfBatch h cell sg cif).length = h.length) (wl : ℝ) (hwl : 0 < wl) (hkl : HKL)
    (p1 : Polycrystal) (hp1 : Program x p1) (qh1 : Qhull) (vs1 : List V3) (dir1 pol1 : V3) (b1 : Beam)
    (hb1 : Beam.new qh1 vs1 dir1 wl pol1 = .ok b1) (a1 T1 o1 : V3) (w1 : ℝ) (m1 : Motion) (hm1 : Motion.new a1 w1 T1 o1 = .ok m1)
    (ha1 : norm a1 = 1) (lo1 hi1 : ℝ) (det1 : Option Detector) (d1 : PeaksDict) (p1' : Polycrystal)
    (hd1 : p1.diffract x b1 m1 lo1 hi1 det1 = .ok (d1, p1')) (row1 : List Fl) (hrow1 : row1 ∈ d1.peaks) (e1 i1 : ℕ)
    (he1 : Has d1.columns row1 "grain_index" (fin e1)) (hi1' : Has d1.columns row1 "phase_number" (fin i1))
    (hh1 : HasV d1.columns row1 "h" "k" "l" ⟨hkl.h, hkl.k, hkl.l⟩) (hU1 : IsRot (p1.orientationLab.getD e1 0))
    (hs1 : p1.strainLab.getD e1 0 = 0)
    (p2 : Polycrystal) (hp2 : Program x p2) (qh2 : Qhull) (vs2 : List V3) (dir2 pol2 : V3) (b2 : Beam)
    (hb2 : Beam.new qh2 vs2 dir2 wl pol2 = .ok b2) (a2 T2 o2 : V3) (w2 : ℝ) (m2 : Motion) (hm2 : Motion.new a2 w2 T2 o2 = .ok m2)
    (ha2 : norm a2 = 1) (lo2 hi2 : ℝ) (det2 : Option Detector) (d2 : PeaksDict) (p2' : Polycrystal)
    (hd2 : p2.diffract x b2 m2 lo2 hi2 det2 = .ok (d2, p2')) (row2 : List Fl) (hrow2 : row2 ∈ d2.peaks) (e2 i2 : ℕ)
    (he2 : Has d2.columns row2 "grain_index" (fin e2)) (hi2' : Has d2.columns row2 "phase_number" (fin i2))
    (hh2 : HasV d2.columns row2 "h" "k" "l" ⟨hkl.h, hkl.k, hkl.l⟩) (hU2 : IsRot (p2.orientationLab.getD e2 0))
    (hs2 : p2.strainLab.getD e2 0 = 0)
    (hcell : (p1.phases[i1]?).map Phase.unitCell = (p2.phases[i2]?).map Phase.unitCell) :
    ∃ tt : ℝ, Has d1.columns row1 "2theta" (fin tt) ∧ Has d2.columns row2 "2theta" (fin tt) := by
  obtain ⟨ph1, f1, g1⟩ := C115_two_theta_of_cell x hx p1 hp1 qh1 vs1 dir1 pol1 wl b1 hb1 hwl a1 T1 o1 w1 m1 hm1 ha1 lo1 hi1 det1 d1 p1' hd1
    row1 hrow1 e1 i1 hkl he1 hi1' hh1 hU1 hs1
  obtain ⟨ph2, f2, g2⟩ := C115_two_theta_of_cell x hx p2 hp2 qh2 vs2 dir2 pol2 wl b2 hb2 hwl a2 T2 o2 w2 m2 hm2 ha2 lo2 hi2 det2 d2 p2' hd2
    row2 hrow2 e2 i2 hkl he2 hi2' hh2 hU2 hs2
  rw [f1, f2] at hcell
  simp only [Option.map_some, Option.some.injEq] at hcell
  exact ⟨_, g1, by rw [hcell]; exact g2⟩

/-- **C115**, exactly: for an element of any symmetric strain, the peak is on the ring of its plane of the unstrained cell if and only if the
strain along its diffraction vector is zero (the plane of the unstrained cell being able to diffract at the wavelength at all). -/
theorem C115_on_ring_iff (x : Xfab) (hx : ∀ h cell sg cif, (x.sfBatch h cell sg cif).length = h.length) (p : Polycrystal)
    (hp : Program x p) (qh : Qhull) (vs : List V3) (dir pol : V3) (wl : ℝ) (b : Beam) (hb : Beam.new qh vs dir wl pol = .ok b)
    (hwl : 0 < wl) (a T o : V3) (w : ℝ) (m : Motion) (hm : Motion.new a w T o = .ok m) (ha : norm a = 1) (lo hi : ℝ)
    (det : Option Detector) (d : PeaksDict) (p' : Polycrystal) (hd : p.diffract x b m lo hi det = .ok (d, p')) (row : List Fl)
    (hrow : row ∈ d.peaks) (e i : ℕ) (hkl : HKL) (G0 : V3) (tt : ℝ) (he : Has d.columns row "grain_index" (fin e))
    (hi' : Has d.columns row "phase_number" (fin i)) (hh : HasV d.columns row "h" "k" "l" ⟨hkl.h, hkl.k, hkl.l⟩)
    (hG : HasV d.columns row "G0_x" "G0_y" "G0_z" G0) (ht : Has d.columns row "2theta" (fin tt))
    (hU : IsRot (p.orientationLab.getD e 0)) (hs : Symmetric (p.strainLab.getD e 0)) :
    ∃ ph, p.phases[i]? = some ph ∧ (wl ≤ 2 * cellSpacing x ph.unitCell hkl →
      (tt = ringAngle wl (cellSpacing x ph.unitCell hkl) ↔ strainAlong (p.strainLab.getD e 0) G0 = 0)) := by
  obtain ⟨-, ⟨tt', G0', g1, g2, g3, g4, g5⟩, -, -⟩ :=
    C04_diffract x hx p hp qh vs dir pol wl b hb hwl a T o w m hm ha lo hi det d p' hd row hrow
  have hcol : d.columns = peakColumns := by
    obtain ⟨_, _, _, rfl, hc⟩ := Polycrystal.diffract_ok hd
    exact diffract_columns hc
  obtain ⟨ph, h1, h2, h3, h4⟩ := C109_spacing_shows_strain x hx p hp qh vs dir pol wl b hb hwl a T o w m hm ha lo hi det d p' hd row hrow
    e i hkl G0 tt he hi' hh hG ht hU hs
  rw [hcol] at g1 ht
  obtain rfl : tt = tt' := Fl.fin.inj (Option.some.inj (((has_iff 22 rfl).mp ht).symm.trans ((has_iff 22 rfl).mp g1)))
  refine ⟨ph, h1, fun hvis => ⟨?_, ?_⟩⟩
  · intro h
    set s := cellSpacing x ph.unitCell hkl with hsd
    set r := Real.sqrt (1 + 2 * strainAlong (p.strainLab.getD e 0) G0) with hr
    have hr0 : 0 < r := Real.sqrt_pos.mpr h3
    have hq : r ^ 2 = 1 + 2 * strainAlong (p.strainLab.getD e 0) G0 := Real.sq_sqrt h3.le
    have hsin : Real.sin (tt / 2) ≠ 0 := by
      intro h0
      unfold braggSpacing at h4
      rw [h0] at h4
      simp at h4
      rcases h4 with h4 | h4 <;> linarith
    have hle : wl / (2 * s) ≤ 1 := by rw [div_le_one (by positivity)]; exact hvis
    have e : Real.sin (tt / 2) = wl / (2 * s) := by
      rw [h]; unfold ringAngle
      rw [show 2 * Real.arcsin (wl / (2 * s)) / 2 = Real.arcsin (wl / (2 * s)) by ring]
      exact Real.sin_arcsin (by have : 0 < wl / (2 * s) := by positivity
                                linarith) hle
    unfold braggSpacing at h4
    rw [e] at h4
    have h5 : s = s * r := by
      rw [← h4]; field_simp
    have : r = 1 := by
      have : s * (r - 1) = 0 := by linarith
      rcases mul_eq_zero.mp this with h | h <;> linarith
    rw [this] at hq
    linarith
  · intro h
    rw [h] at h4
    exact ringAngle_of_spacing hwl g3 g4 h2 (by rw [h4]; simp)

/-- C115 is not vacuous: a crystal from the constructor, without strain, has hits on a detector orthogonal to the beam, all from its plane
(1,0,0), and they lie on its ring. -/
example : ∃ d p', Program (xOf ringB) (polyOf ringB) ∧ (polyOf ringB).diffract (xOf ringB) demoBeam demoZ 0 (Real.pi / 2) none = .ok (d, p') ∧
    (ringDet.peaksIntersection d 1).peaks ≠ [] ∧ ∀ row ∈ (ringDet.peaksIntersection d 1).peaks,
      ∃ (ph : Phase) (zd yd : ℝ) (S : V3), (polyOf ringB).phases[0]? = some ph ∧
        Has (ringDet.peaksIntersection d 1).columns row "zd" (fin zd) ∧ Has (ringDet.peaksIntersection d 1).columns row "yd" (fin yd) ∧
        HasV (ringDet.peaksIntersection d 1).columns row "Source_x" "Source_y" "Source_z" S ∧
        norm (perp ⟨1, 0, 0⟩ (pointAt ⟨100, -100, -100⟩ ⟨100, 100, -100⟩ ⟨100, -100, 100⟩ zd yd - S)) =
          dot ((1 / norm (⟨1, 0, 0⟩ : V3)) • (⟨1, 0, 0⟩ : V3)) (⟨100, -100, -100⟩ - S) *
            Real.tan (ringAngle (2 * Real.pi) (cellSpacing (xOf ringB) ph.unitCell ⟨1, 0, 0⟩)) := by
  obtain ⟨d, p', hp, hd, hne, hrows⟩ := debye_hits
  refine ⟨d, p', hp, hd, hne, fun row hrow => ?_⟩
  obtain ⟨-, h1, h2, h3⟩ := hrows row hrow
  exact C115_ring_radius (xOf ringB) (by intros; simp [xOf]) _ hp _ _ _ _ _ _ demoBeam_new (by positivity) _ _ _ _ _ demoZ_new norm_ez _ _ _ _ _ hd
    _ _ _ _ _ _ _ _ _ _ _ _ ringDet_new (by simp [V3.dot]) (by simp [V3.dot]) (by simp [V3.dot]) 1 row hrow 0 0 ⟨1, 0, 0⟩ h1 h2
    (by simpa using h3) M3.isRot_one rfl

end XRD
