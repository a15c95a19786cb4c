import Verif.Props.EndToEnd
import Verif.Props.Snapshot

/-! Property C111: where the elements are, and how the scan shifts the sample, matters only for the source points and the illumination. -/

namespace XRD.Spec
open XRD V3
/-- the two crystals have the same orientations, lattices and phases, element by element; their meshes may be anything -/
structure SameGrains (p q : Polycrystal) : Prop where
  orientation : p.orientationLab = q.orientationLab
  lattice : p.eB = q.eB
  phases : p.phases = q.phases
  map : p.phaseMap = q.phaseMap
  kind : p.mapKind = q.mapKind
/-- the columns of the peaks table that tell where the scattering happens and how large the element is, and the running number -/
def placeColumns : List String := ["Source_x", "Source_y", "Source_z", "volumes", "scherrer_fwhm", "peak_index"]
end XRD.Spec

namespace XRD
open V3 M3 Fl Spec
open scoped Classical

/-- C111: samples built from the same orientations, strains and phases on any two meshes with the same number of elements have the same
grains, and keep them as long as they are turned alike, whatever the translations and centres of rotation. -/
theorem C111_same_grains (x : Xfab) (mesh1 mesh2 : TetraMesh) (hn : mesh1.enod.length = mesh2.enod.length) (U s : MatArg) (ph : PhasesArg)
    (mp : Option (List ℝ)) (p1 p2 : Polycrystal) (h1 : Polycrystal.new x mesh1 U s ph mp = .ok p1)
    (h2 : Polycrystal.new x mesh2 U s ph mp = .ok p2) :
    SameGrains p1 p2 ∧ ∀ q1 q2, SameGrains q1 q2 → ∀ (a T1 o1 T2 o2 : V3) (w t : ℝ) (m1 m2 : Motion), Motion.new a w T1 o1 = .ok m1 →
      Motion.new a w T2 o2 = .ok m2 → SameGrains (q1.transform m1 t) (q2.transform m2 t) := by
  constructor
  · obtain ⟨U1, S1, k1, pm1, e1, a1, a2, a3, a4, rfl⟩ := Polycrystal.new_ok h1
    obtain ⟨U2, S2, k2, pm2, e2, b1, b2, b3, b4, rfl⟩ := Polycrystal.new_ok h2
    rw [hn] at a1 a2 a3 a4
    obtain rfl := Except.ok.inj (a1.symm.trans b1)
    obtain rfl := Except.ok.inj (a2.symm.trans b2)
    have := Except.ok.inj (a3.symm.trans b3)
    simp only [Prod.mk.injEq] at this
    obtain ⟨rfl, rfl⟩ := this
    obtain rfl := Except.ok.inj (a4.symm.trans b4)
    exact ⟨rfl, rfl, rfl, rfl, rfl⟩
  · intro q1 q2 h a T1 o1 T2 o2 w t m1 m2 hm1 hm2
    obtain ⟨rfl, -⟩ := Motion.new_ok hm1
    obtain ⟨rfl, -⟩ := Motion.new_ok hm2
    refine ⟨?_, h.lattice, h.phases, h.map, h.kind⟩
    simp only [Polycrystal.transform, h.orientation]

/-- **C111** Two crystals with the same grains, wherever their elements are and whatever their shapes, in the same beam, turned alike
(axis and angle), whatever the translation and centre of the rotation: `diffract` fails for one exactly if it fails for the other, with
the same exception; and every peak of the first appears for the second, with the same entry in all columns but those of place and
size, at the source point of the second, if that point is in the beam. -/
theorem C111_position_does_not_matter (x : Xfab) (hx : ∀ h cell sg cif, (x.sfBatch h cell sg cif).length = h.length) (p1 p2 : Polycrystal)
    (hp1 : Program x p1) (hp2 : Program x p2) (hs : SameGrains p1 p2) (b : Beam) (a T1 o1 T2 o2 : V3) (w : ℝ) (m1 m2 : Motion)
    (hm1 : Motion.new a w T1 o1 = .ok m1) (hm2 : Motion.new a w T2 o2 = .ok m2) (ha : norm a = 1) (lo hi : ℝ) :
    (∀ e, p1.diffract x b m1 lo hi none = .error e ↔ p2.diffract x b m2 lo hi none = .error e) ∧
    ∀ d1 q1 d2 q2, p1.diffract x b m1 lo hi none = .ok (d1, q1) → p2.diffract x b m2 lo hi none = .ok (d2, q2) →
      ∀ row1 ∈ d1.peaks, ∀ (e : ℕ) (t : ℝ), Has d1.columns row1 "grain_index" (fin e) → Has d1.columns row1 "diffraction_times" (fin t) →
        b.contains (move a w T2 o2 t (p2.meshLab.espherecentroids.getD e 0)) →
        ∃ row2 ∈ d2.peaks, (∀ name, name ∉ placeColumns → ∀ v, Has d1.columns row1 name v ↔ Has d2.columns row2 name v) ∧
          HasV d2.columns row2 "Source_x" "Source_y" "Source_z" (move a w T2 o2 t (p2.meshLab.espherecentroids.getD e 0)) := by
  obtain ⟨rfl, hw0, hw1, -⟩ := Motion.new_ok hm1
  obtain ⟨rfl, -⟩ := Motion.new_ok hm2
  have hmv : ∀ (t : ℝ) (q : V3), Motion.call1 ⟨a, w, T2, o2⟩ q t = move a w T2 o2 t q := fun t q =>
    C06_motion_is_rotation_then_translation _ _ _ _ _ _ hm2 ha q
  set c1 := (p1.setupPhases x b.wavelength lo hi).crystal with hc1
  set c2 := (p2.setupPhases x b.wavelength lo hi).crystal with hc2
  have e1 : c2 = { c1 with sphereCentroids := c2.sphereCentroids, volumes := c2.volumes } := by
    simp only [hc1, hc2, Polycrystal.setupPhases, Polycrystal.crystal, hs.orientation, hs.lattice, hs.phases, hs.map, hs.kind]
  have hrows : allPhaseRows c2 b ⟨a, w, T2, o2⟩ = allPhaseRows c1 b ⟨a, w, T1, o1⟩ := by
    rw [e1]; rfl
  have hkind : c2.mapKind = c1.mapKind := by rw [e1]
  have hphs : c2.phases = c1.phases := by rw [e1]
  constructor
  · intro e
    unfold Polycrystal.diffract
    simp only [Polycrystal.limits]
    unfold diffractCore computePeaks
    rw [← hc1, ← hc2, hkind, hphs, hrows]
    by_cases g1 : c1.mapKind = .numpy ∧ c1.phases ≠ []
    · simp [if_pos g1]
    · by_cases g2 : (allPhaseRows c1 b ⟨a, w, T1, o1⟩).length = 1
      · simp [if_neg g1, if_pos g2]
      · simp [if_neg g1, if_neg g2]
  · intro d1 q1 d2 q2 h1 h2 row1 hrow e t he ht hin
    obtain ⟨lo1, hi1, hl1, rfl, k1⟩ := Polycrystal.diffract_ok h1
    obtain ⟨lo2, hi2, hl2, rfl, k2⟩ := Polycrystal.diffract_ok h2
    simp only [Polycrystal.limits, Except.ok.injEq, Prod.mk.injEq] at hl1 hl2
    obtain ⟨rfl, rfl⟩ := hl1
    obtain ⟨rfl, rfl⟩ := hl2
    have hcons1 := program_consistent hx hp1 b.wavelength lo hi
    have hcons2 := program_consistent hx hp2 b.wavelength lo hi
    rw [diffract_columns k1] at he ht ⊢
    rw [diffract_columns k2]
    obtain ⟨e', i, ph, n, hkl, wt, t', idx, hr, hf, hill, rfl⟩ := mem_diffract hcons1 k1 hrow
    have g0 := (has_iff 0 rfl).mp he
    have g6 := (has_iff 6 rfl).mp ht
    simp only [row24, List.cons_append, List.getElem?_cons_zero, Option.some.injEq, Fl.fin.injEq, Nat.cast_inj] at g0
    have g6' : t' = t := by simpa [row24] using g6
    subst g0 g6'
    have hG : c2.G0 e' hkl = c1.G0 e' hkl := by rw [e1]; rfl
    have hr2 : Reflection c2 e' i ph n hkl wt := by
      rw [e1]; exact ⟨hr.inPhase, hr.phase, hr.usable⟩
    obtain ⟨idx2, hmem⟩ := mem_diffract_of hcons2 k2 hr2 (by rw [hG]; exact hf) (by
      rw [hmv]; exact hin)
    refine ⟨_, hmem, ?_, ?_⟩
    · intro name hname v
      have key : ∀ j : ℕ, peakColumns[j]? = some name →
          (row24 c1 b ⟨a, w, T1, o1⟩ e' i hkl wt t' ++ [fin (idx : ℕ)])[j]? = (row24 c2 b ⟨a, w, T2, o2⟩ e' i hkl wt t' ++ [fin (idx2 : ℕ)])[j]? := by
        intro j hj
        have hlt : j < 25 := by
          by_contra hge
          rw [List.getElem?_eq_none (by simpa [peakColumns] using hge)] at hj; cases hj
        unfold row24
        dsimp only
        rw [hG]
        interval_cases j
        all_goals first
          | rfl
          | exact absurd (show name ∈ placeColumns by
              have := Option.some.inj hj
              subst this; simp [placeColumns]) hname
      unfold Has
      constructor
      · rintro ⟨j, hj, hv⟩
        exact ⟨j, hj, (key j hj).symm.trans hv⟩
      · rintro ⟨j, hj, hv⟩
        exact ⟨j, hj, (key j hj).trans hv⟩
    · rw [← hmv]
      exact ⟨⟨16, rfl, rfl⟩, ⟨17, rfl, rfl⟩, ⟨18, rfl, rfl⟩⟩

/-- the centre of the element of the scene is within distance 3 of the origin -/
theorem scene_sphere_small : nsq (sceneMesh.espherecentroids.getD 0 0) < 9 := by
  have hs : sceneMesh.espherecentroids.getD 0 0 = (sphereOf ⟨⟨0, 0, 0⟩, ⟨1, 0, 0⟩, ⟨0, 2, 0⟩, ⟨0, 0, 3⟩⟩).1 := rfl
  rw [hs]
  set t : Tet := ⟨⟨0, 0, 0⟩, ⟨1, 0, 0⟩, ⟨0, 2, 0⟩, ⟨0, 0, 3⟩⟩ with ht
  have h3 : nsq (sphere4 t).1 < 9 := by
    simp only [sphere4, ht, norm_sq]
    norm_num [nsq, V3.dot, M3.inv, mulVec, M3.det, V3.cross]
  have hij : ∀ k : ℕ, pairTable.getD k (0, 1) ∈ pairTable := by
    intro k
    by_cases hk : k < 6
    · interval_cases k <;> decide
    · rw [List.getD_eq_default _ _ (by simp [pairTable]; omega)]; decide
  have main : ∀ ij ∈ pairTable, ∀ b : Bool,
      nsq (sphere2 (t.get ij.1) (t.get ij.2)).1 < 9 ∧
      nsq (sphere3 (t.get ij.1) (t.get ij.2) (if b then t.get (([0, 1, 2, 3].filter fun k => k ≠ ij.1 ∧ k ≠ ij.2).getD 0 0)
        else t.get (([0, 1, 2, 3].filter fun k => k ≠ ij.1 ∧ k ≠ ij.2).getD 1 0))).1 < 9 := by
    intro ij hij b
    simp only [pairTable, List.mem_cons, List.not_mem_nil, or_false] at hij
    rcases hij with rfl | rfl | rfl | rfl | rfl | rfl <;> cases b <;>
      simp [sphere2, sphere3, ht, Q4.get, norm_sq, nsq, V3.dot, V3.cross] <;> norm_num
  have hm := main _ (hij (argmax (sidesOf t)))
  unfold sphereOf
  dsimp only
  split_ifs with h1 h2 h4
  all_goals first | exact (hm true).1 | exact h3 | skip
  · simpa using (hm true).2
  · simpa using (hm false).2

/-- C111 is not vacuous: the scene's crystal, turned with and without a translation of 1 along the beam, shows a peak at displaced source
points. -/
example : ∃ (m2 : Motion) (d1 d2 : PeaksDict) (q1 q2 : Polycrystal), Motion.new ⟨0, 0, 1⟩ (Real.pi / 2) ⟨1, 0, 0⟩ = .ok m2 ∧
    Program sceneX scenePoly ∧ SameGrains scenePoly scenePoly ∧ scenePoly.diffract sceneX demoBeam demoZ 0 (Real.pi / 2) none = .ok (d1, q1) ∧
    scenePoly.diffract sceneX demoBeam m2 0 (Real.pi / 2) none = .ok (d2, q2) ∧ ∃ row ∈ d1.peaks, ∃ t : ℝ,
      Has d1.columns row "grain_index" (fin (0 : ℕ)) ∧ Has d1.columns row "diffraction_times" (fin t) ∧ 0 < t ∧
      demoBeam.contains (move ⟨0, 0, 1⟩ (Real.pi / 2) ⟨1, 0, 0⟩ 0 t (scenePoly.meshLab.espherecentroids.getD 0 0)) := by
  have hpi := Real.pi_pos
  have hM2 : Motion.new ⟨0, 0, 1⟩ (Real.pi / 2) ⟨1, 0, 0⟩ = .ok ⟨⟨0, 0, 1⟩, Real.pi / 2, ⟨1, 0, 0⟩, 0⟩ := by
    unfold Motion.new
    rw [if_pos ⟨by linarith, by linarith⟩, if_pos]
    unfold axisAccepted allclose
    rw [norm_ez]; norm_num
  have hsg : SameGrains scenePoly scenePoly := ⟨rfl, rfl, rfl, rfl, rfl⟩
  have hs0 : Real.sin 0 ≤ Real.sqrt 2 / 2 := by rw [Real.sin_zero]; positivity
  have hs1 : Real.sqrt 2 / 2 ≤ Real.sin (Real.pi / 2) := by
    rw [Real.sin_pi_div_two, div_le_one (by norm_num), Real.sqrt_le_left (by norm_num)]; norm_num
  obtain ⟨d, hd, hcol, -, t, ht, hpk⟩ := tangent_scene 1 sceneB (sceneMesh.espherecentroids.getD 0 0) (scenePoly.meshVolumes.getD 0 0)
    ⟨[1, 1, 1, 90, 90, 90], "P1", none, [⟨1, 0, 0⟩], none⟩ rfl rfl demoZ rfl norm_ez rfl rfl scene_sphere scene_roots
  have hdd : ∃ q1, scenePoly.diffract sceneX demoBeam demoZ 0 (Real.pi / 2) none = .ok (d, q1) := by
    refine ⟨{ scenePoly with phases := [⟨[1, 1, 1, 90, 90, 90], "P1", none, [⟨1, 0, 0⟩], none⟩] }, ?_⟩
    unfold Polycrystal.diffract
    simp only [Polycrystal.limits]
    have hph : scenePoly.setupPhases sceneX demoBeam.wavelength 0 (Real.pi / 2) =
        { scenePoly with phases := [⟨[1, 1, 1, 90, 90, 90], "P1", none, [⟨1, 0, 0⟩], none⟩] } := by
      simp only [Polycrystal.setupPhases, scenePoly, polyOf, List.map]; rw [scene_setup 0 (Real.pi / 2) hs0 hs1]
    rw [hph]
    have hcr : Polycrystal.crystal { scenePoly with phases := [⟨[1, 1, 1, 90, 90, 90], "P1", none, [⟨1, 0, 0⟩], none⟩] } =
        ⟨.torch, [0], [⟨[1, 1, 1, 90, 90, 90], "P1", none, [⟨1, 0, 0⟩], none⟩], [1], [sceneB],
          [sceneMesh.espherecentroids.getD 0 0], [scenePoly.meshVolumes.getD 0 0]⟩ := rfl
    rw [hcr, hd]
  obtain ⟨q1, hdd⟩ := hdd
  obtain ⟨herr, -⟩ := C111_position_does_not_matter sceneX (by intros; simp [xOf]) scenePoly scenePoly program_scene program_scene hsg demoBeam
    ⟨0, 0, 1⟩ 0 0 ⟨1, 0, 0⟩ 0 (Real.pi / 2) demoZ _ demoZ_new hM2 norm_ez 0 (Real.pi / 2)
  have hok2 : ∃ d2 q2, scenePoly.diffract sceneX demoBeam ⟨⟨0, 0, 1⟩, Real.pi / 2, ⟨1, 0, 0⟩, 0⟩ 0 (Real.pi / 2) none = .ok (d2, q2) := by
    cases h : scenePoly.diffract sceneX demoBeam ⟨⟨0, 0, 1⟩, Real.pi / 2, ⟨1, 0, 0⟩, 0⟩ 0 (Real.pi / 2) none with
    | error e => rw [(herr e).mpr h] at hdd; cases hdd
    | ok r => exact ⟨r.1, r.2, rfl⟩
  obtain ⟨d2, q2, hok2⟩ := hok2
  have hang : demoZ.angle = Real.pi / 2 := rfl
  have harc : 0 < Real.arctan (1/2) := by rw [Real.arctan_pos]; norm_num
  have harc1 : Real.arctan (1/2) < Real.pi / 4 := by rw [← Real.arctan_one]; exact Real.arctan_strictMono (by norm_num)
  have ht0 : 0 < t := by
    rw [hang] at ht
    by_contra h
    nlinarith
  have ht1 : t < 1 := by
    rw [hang] at ht
    by_contra h
    nlinarith
  refine ⟨_, d, d2, q1, q2, hM2, program_scene, hsg, hdd, hok2, _, by rw [hpk]; exact List.mem_cons_self, t, ?_, ?_, ht0, ?_⟩
  · rw [hcol]; exact ⟨0, rfl, by simp [row24]⟩
  · rw [hcol]; exact ⟨6, rfl, by simp [row24]⟩
  · apply demoBeam_contains
    rw [← C06_motion_is_rotation_then_translation _ _ _ _ _ _ hM2 norm_ez]
    have e : Motion.call1 ⟨⟨0, 0, 1⟩, Real.pi / 2, ⟨1, 0, 0⟩, 0⟩ (scenePoly.meshLab.espherecentroids.getD 0 0) t =
        demoZ.call1 (sceneMesh.espherecentroids.getD 0 0) t + t • ⟨1, 0, 0⟩ := by
      rw [C06_motion_is_rotation_then_translation _ _ _ _ _ _ hM2 norm_ez, C06_motion_is_rotation_then_translation _ _ _ _ _ _ demoZ_new norm_ez]
      have hl : scenePoly.meshLab.espherecentroids.getD 0 0 = sceneMesh.espherecentroids.getD 0 0 := rfl
      rw [hl]
      unfold move
      ext <;> simp
    rw [e]
    have hn : nsq (demoZ.call1 (sceneMesh.espherecentroids.getD 0 0) t) < 9 := by
      rw [call1_nsq norm_ez rfl rfl]; exact scene_sphere_small
    set S := demoZ.call1 (sceneMesh.espherecentroids.getD 0 0) t
    simp only [nsq, V3.dot, V3.add_x, V3.add_y, V3.add_z, V3.smul_x, V3.smul_y, V3.smul_z] at hn ⊢
    nlinarith [sq_nonneg (S.x - t), sq_nonneg S.x, sq_nonneg S.y, sq_nonneg S.z]

end XRD
