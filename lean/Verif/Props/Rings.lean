import Verif.Props.Spacing
import Verif.Props.Detector2
import Verif.Lemmas.Turn
import Verif.Props.Snapshot
import Verif.Props.ImgScene

/-! Property C110: every hit lies on the Debye-Scherrer ring of its scattering angle. -/

namespace XRD
open V3 M3 Fl Spec
open scoped Classical

/-- the point of the detector with corners `c0`, `c1`, `c2` at the coordinates `zd` along `c2 - c0` and `yd` along `c1 - c0` -/
noncomputable def pointAt (c0 c1 c2 : V3) (zd yd : ℝ) : V3 :=
  c0 + zd • ((1 / norm (c2 - c0)) • (c2 - c0)) + yd • ((1 / norm (c1 - c0)) • (c1 - c0))

/-- three vectors orthogonal to a non-zero one are dependent -/
theorem triple_zero {n u v w : V3} (hn : n ≠ 0) (h1 : dot n u = 0) (h2 : dot n v = 0) (h3 : dot n w = 0) : dot u (cross v w) = 0 := by
  have key : dot u (cross v w) • n = dot n u • cross v w + dot n v • cross w u + dot n w • cross u v := by
    ext <;> simp [V3.dot, V3.cross] <;> ring
  rw [h1, h2, h3] at key
  have : dot u (cross v w) • n = 0 := by rw [key]; ext <;> simp
  by_contra hc
  apply hn
  ext
  · have := congrArg V3.x this; simp at this; exact this.resolve_left hc
  · have := congrArg V3.y this; simp at this; exact this.resolve_left hc
  · have := congrArg V3.z this; simp at this; exact this.resolve_left hc

theorem perp_smul_left {c : ℝ} (hc : c ≠ 0) (u v : V3) : perp (c • u) v = perp u v := by
  by_cases hu : u = 0
  · subst hu; ext <;> simp [perp, V3.dot]
  have hn : norm u ≠ 0 := (V3.norm_pos.2 hu).ne'
  unfold perp
  have : (dot (c • u) v / norm (c • u) ^ 2) • (c • u) = (dot u v / norm u ^ 2) • u := by
    rw [dot_smul_left, V3.norm_smul]
    have e : c * dot u v / (|c| * norm u) ^ 2 * c = dot u v / norm u ^ 2 := by
      rw [mul_pow, sq_abs]; field_simp
    ext <;> simp only [V3.smul_x, V3.smul_y, V3.smul_z] <;> rw [← e] <;> ring
  rw [this]

/-- **C110** Whatever a program did with the crystal before, every hit on a detector lies on the Debye-Scherrer cone of its `2theta`
column: seen from its source point, along the beam it is at `|P - S| cos 2θ` and off the beam axis by `|P - S| sin 2θ`.  On a detector
whose sides are orthogonal to the beam, at distance `L` of its plane from the source, the hit is on the ring of radius `L tan 2θ`. -/
theorem C110_hits_on_rings (x : Xfab) (hx : ∀ h cell sg cif, (x.sfBatch h cell sg cif).length = h.length) (p : Polycrystal)
    (hp : Program x p) (qh : Qhull) (vs : List V3) (dir pol : V3) (wl : ℝ) (b : Beam) (hb : Beam.new qh vs dir wl pol = .ok b)
    (hwl : 0 < wl) (a T o : V3) (w : ℝ) (m : Motion) (hm : Motion.new a w T o = .ok m) (ha : norm a = 1) (lo hi : ℝ)
    (det : Option Detector) (d : PeaksDict) (p' : Polycrystal) (hd : p.diffract x b m lo hi det = .ok (d, p'))
    (c0 c1 c2 : V3) (np : PixArg ℤ) (ps : PixArg ℝ) (sg th : ℝ) (mr : ℤ) (fl fp fs : Bool) (D : Detector)
    (hD : Detector.new c0 c1 c2 np ps sg th mr fl fp fs = .ok D) (ho : dot (c2 - c0) (c1 - c0) = 0) (frames : ℤ) (row : List Fl)
    (hrow : row ∈ (D.peaksIntersection d frames).peaks) :
    ∃ (zd yd tt : ℝ) (S : V3), Has (D.peaksIntersection d frames).columns row "zd" (fin zd) ∧
      Has (D.peaksIntersection d frames).columns row "yd" (fin yd) ∧ Has (D.peaksIntersection d frames).columns row "2theta" (fin tt) ∧
      HasV (D.peaksIntersection d frames).columns row "Source_x" "Source_y" "Source_z" S ∧ 0 ≤ tt ∧ tt ≤ Real.pi ∧
      dot ((1 / norm dir) • dir) (pointAt c0 c1 c2 zd yd - S) = norm (pointAt c0 c1 c2 zd yd - S) * Real.cos tt ∧
      norm (perp dir (pointAt c0 c1 c2 zd yd - S)) = norm (pointAt c0 c1 c2 zd yd - S) * Real.sin tt ∧
      (dot dir (c1 - c0) = 0 → dot dir (c2 - c0) = 0 →
        norm (perp dir (pointAt c0 c1 c2 zd yd - S)) = dot ((1 / norm dir) • dir) (c0 - S) * Real.tan tt) := by
  obtain ⟨lo', hi', hl, rfl, hc⟩ := Polycrystal.diffract_ok hd
  have hcons := program_consistent hx hp b.wavelength lo' hi'
  set cr := (p.setupPhases x b.wavelength lo' hi').crystal
  obtain ⟨hcol, hgood⟩ := diffract_good cr b m d hcons hc
  rw [peaksIntersection_rows D d frames (fun q hq => (hgood q hq).1)] at hrow
  obtain ⟨q, hq, rfl⟩ := List.mem_map.mp hrow
  obtain ⟨hq, hcont⟩ := List.mem_filter.mp hq
  simp only [decide_eq_true_eq] at hcont
  obtain ⟨e, i, ph, n, hkl, wt, t, idx, hr, hf, hill, rfl⟩ := mem_diffract hcons hc hq
  obtain ⟨rfl, hw0, hw1, -⟩ := Motion.new_ok hm
  have ha' := norm_eq_one.mp ha
  obtain ⟨-, hdir, -, hwave, -⟩ := Beam.new_ok hb
  have hkn := Beam.norm_wave hb hwl
  have hpi := Real.pi_pos
  have hk0 : 0 < norm b.waveVector := by rw [hkn]; positivity
  have hk : b.waveVector ≠ 0 := V3.norm_pos.1 hk0
  have hel := (found_sound hw0 hf).1
  set R := Motion.rotate1 ⟨a, w, T, o⟩ (cr.G0 e hkl) t with hR
  have hRn : nsq R = nsq (cr.G0 e hkl) := IsRot.nsq_mulVec (rotMat_isRot ha' _).1 _
  set K := R + b.waveVector with hK
  set S := Motion.call1 ⟨a, w, T, o⟩ (cr.sphereCentroids.getD e 0) t with hS
  have hKn : norm K = norm b.waveVector := by
    rw [norm_eq_iff]
    have : nsq K = R.nsq + 2 * b.waveVector.dot R + b.waveVector.nsq := by
      simp only [hK, nsq, V3.dot, V3.add_x, V3.add_y, V3.add_z]; ring
    rw [this, hRn]; linarith
  have hK0 : K ≠ 0 := by rw [← V3.norm_pos, hKn]; exact hk0
  have hri : D.rowIntersect (row24 cr b ⟨a, w, T, o⟩ e i hkl wt t ++ [fin (idx : ℕ)]) =
      [(D.intersect K S).1, (D.intersect K S).2.1, (D.intersect K S).2.2] := by
    unfold Detector.rowIntersect; rfl
  rw [hri] at hcont
  obtain ⟨zd, yd, s, z1, y1, hs, -, -, -, -, hP⟩ := C21_hit_is_on_ray c0 c1 c2 np ps sg th mr fl fp fs D hD ho K S hcont.1
  obtain ⟨b1, b2⟩ := cos_bounds b.waveVector K
  have htt : twoTheta b.waveVector K = fin (angle b.waveVector K) := by
    rw [twoTheta_eq hk, if_neg hK0, Fl.arccos_fin b1 b2]; rfl
  have hcos : Real.cos (angle b.waveVector K) = dot b.waveVector K / (norm b.waveVector * norm K) := Real.cos_arccos b1 b2
  have hcol' : (D.peaksIntersection d frames).columns = peakColumns ++ ["zd", "yd", "incident_angle", "frame", "intensity_factors"] := by
    show d.columns ++ _ = _; rw [hcol]
  have hPS : pointAt c0 c1 c2 zd yd - S = s • K := by
    unfold pointAt; rw [← hP]; abel
  have hnorm : norm (s • K) = s * norm K := by rw [V3.norm_smul, abs_of_nonneg hs]
  set u : V3 := (1 / norm dir) • dir with hu
  have hun : norm dir ≠ 0 := (V3.norm_pos.2 hdir).ne'
  have hwu : dot u K * norm b.waveVector = dot b.waveVector K := by
    have e : dot b.waveVector K = 2 * Real.pi / wl * dot u K := by
      conv_lhs => rw [hwave]
      rw [dot_smul_left]
    rw [e, hkn]; ring
  have hcosu : dot u K = norm K * Real.cos (angle b.waveVector K) := by
    rw [hcos, ← hwu]; rw [hKn]; field_simp
  have hperp : norm (perp b.waveVector K) = norm K * Real.sin (angle b.waveVector K) := by
    rw [perp_norm_elastic hk hKn, hKn]
  have hperpd : perp dir (s • K) = s • perp b.waveVector K := by
    have e1 : perp b.waveVector K = perp dir K := by
      rw [hwave, perp_smul_left (by positivity), perp_smul_left (by rw [one_div]; exact inv_ne_zero hun)]
    rw [e1]
    unfold perp
    rw [dot_smul_right]
    ext <;> simp only [V3.sub_x, V3.sub_y, V3.sub_z, V3.smul_x, V3.smul_y, V3.smul_z] <;> ring
  have g1 : dot u (s • K) = norm (s • K) * Real.cos (angle b.waveVector K) := by
    rw [dot_smul_right, hnorm, hcosu]; ring
  have g2 : norm (perp dir (s • K)) = norm (s • K) * Real.sin (angle b.waveVector K) := by
    rw [hperpd, V3.norm_smul, abs_of_nonneg hs, hnorm, hperp]; ring
  refine ⟨zd, yd, angle b.waveVector K, S, ?_, ?_, ?_, ?_, Real.arccos_nonneg _, Real.arccos_le_pi _, by rw [hPS]; exact g1, by rw [hPS]; exact g2, ?_⟩
  · rw [hcol', ← z1]; exact ⟨25, rfl, by unfold row30; rw [hri]; rfl⟩
  · rw [hcol', ← y1]; exact ⟨26, rfl, by unfold row30; rw [hri]; rfl⟩
  · rw [hcol', ← htt]; exact ⟨22, rfl, rfl⟩
  · rw [hcol']; exact ⟨⟨16, rfl, rfl⟩, ⟨17, rfl, rfl⟩, ⟨18, rfl, rfl⟩⟩
  · intro h1 h2
    rw [hPS, g2]
    have hL : dot u (c0 - S) = dot u (s • K) := by
      rw [← hPS]
      unfold pointAt
      have e : c0 + zd • ((1 / norm (c2 - c0)) • (c2 - c0)) + yd • ((1 / norm (c1 - c0)) • (c1 - c0)) - S =
          (c0 - S) + (zd • ((1 / norm (c2 - c0)) • (c2 - c0)) + yd • ((1 / norm (c1 - c0)) • (c1 - c0))) := by abel
      rw [e, hu]
      rw [dot_smul_left, dot_smul_left, dot_add_right, dot_add_right]
      simp only [dot_smul_right, h1, h2]; ring
    rw [hL, g1]
    have hc0 : Real.cos (angle b.waveVector K) ≠ 0 := by
      intro h0
      rw [h0, mul_zero] at hcosu
      have hdK : dot dir K = 0 := by
        rw [hu, dot_smul_left] at hcosu
        rcases mul_eq_zero.mp hcosu with h | h
        · exact absurd h (by rw [one_div]; exact inv_ne_zero hun)
        · exact h
      obtain ⟨hok, rfl, rfl, rfl, -⟩ := Detector.new_ok hD
      obtain ⟨cn, hcn, hpar⟩ := hok.normal_parallel
      refine C21_no_hit_parallel_or_away D K S (Or.inl ?_) hcont.1
      rw [hpar, dot_smul_right, triple_zero hdir hdK h2 h1, mul_zero]
    rw [Real.tan_eq_sin_div_cos]
    field_simp

/-- lattice matrix whose reflection (1,0,0) has `B hkl = (-3/25, 4/25, 3/5)`: it diffracts at `cos 2θ = 4/5` -/
noncomputable def ringB : M3 := ⟨⟨-3/25, 0, 0⟩, ⟨4/25, 1, 0⟩, ⟨3/5, 0, 1⟩⟩

theorem ring_roots : laueRoots (rho0Factor ⟨1, 0, 0⟩ demoZ.axis) (rho1Factor ⟨1, 0, 0⟩ demoZ.axis) (rho2Factor ⟨1, 0, 0⟩ demoZ.axis)
      (getG 1 ringB ⟨1, 0, 0⟩) = (fin (1/2), fin (1/2)) := by
  have e : getG 1 ringB ⟨1, 0, 0⟩ = ⟨-3/25, 4/25, 3/5⟩ := by
    ext <;> simp [getG, ringB, mulVec, vecMul, V3.dot]
  rw [e]
  obtain ⟨h0, h1, h2⟩ := demo_rho ⟨-3/25, 4/25, 3/5⟩
  have hn : nsq (⟨-3/25, 4/25, 3/5⟩ : V3) = 2/5 := by norm_num [nsq, V3.dot]
  show laueRoots (rho0Factor ⟨1, 0, 0⟩ ⟨0, 0, 1⟩) (rho1Factor ⟨1, 0, 0⟩ ⟨0, 0, 1⟩) (rho2Factor ⟨1, 0, 0⟩ ⟨0, 0, 1⟩) _ = _
  rw [laueRoots_ne (by rw [h0, h2, hn]; norm_num)]
  simp only [h0, h1, h2, hn]
  norm_num

theorem ring_rot {t : ℝ} (ht : demoZ.angle * t = 2 * Real.arctan (1/2)) : demoZ.rotate1 ⟨-3/25, 4/25, 3/5⟩ t = ⟨-1/5, 0, 3/5⟩ := by
  obtain ⟨hc, hs⟩ := cos_sin_tangent
  unfold Motion.rotate1
  rw [show demoZ.axis = ⟨0, 0, 1⟩ from rfl, rotMat_eq_spec (norm_eq_one.mp norm_ez), ht]
  unfold Spec.rotate
  rw [hc, hs]
  ext <;> simp [V3.cross, V3.dot, demoZ] <;> norm_num

/-- a detector orthogonal to the beam, at distance 100, with the Lorentz and polarization factors off -/
noncomputable def ringDet : Detector := { imgDet 1 1 (1/50) with useLorentz := false, usePolarization := false }

theorem ringDet_new : Detector.new ⟨100, -100, -100⟩ ⟨100, 100, -100⟩ ⟨100, -100, 100⟩ .absent (.both 1) 1 (1/50) 13
    false false true = .ok ringDet := by
  have h := imgDet_new 1 1 (1/50) one_pos
  unfold Detector.new at h ⊢
  simp only [pixelSizes] at h ⊢
  split_ifs at h ⊢ with h1 h2
  have := Except.ok.inj h
  unfold ringDet
  rw [← this]

theorem ring_setup : scenePhase.setup (xOf ringB) demoBeam.wavelength 0 (Real.pi / 2) = ⟨[1, 1, 1, 90, 90, 90], "P1", none, [⟨1, 0, 0⟩], none⟩ := by
  have hn : norm (ringB.mulVec ⟨1, 0, 0⟩) = Real.sqrt (2/5) := by
    unfold V3.norm; congr 1; norm_num [ringB, mulVec, nsq, V3.dot]
  have hp := Real.pi_pos
  have h2 : Real.sqrt (2/5) < 1 := by rw [Real.sqrt_lt' (by norm_num)]; norm_num
  have hc : Real.sin 0 / (2 * Real.pi) ≤ Real.sqrt (2/5) / (4 * Real.pi) ∧
      Real.sqrt (2/5) / (4 * Real.pi) ≤ Real.sin (Real.pi / 2) / (2 * Real.pi) := by
    rw [Real.sin_pi_div_two, Real.sin_zero, zero_div]
    refine ⟨by positivity, ?_⟩
    rw [div_le_div_iff₀ (by positivity) (by positivity)]
    nlinarith
  unfold Phase.setup scenePhase Phase.new xOf demoBeam
  simp only [hn]
  rw [if_pos hc]

theorem program_ring : Program (xOf ringB) (polyOf ringB) :=
  .new sceneMesh_new (by
    intro f hf
    simp only [PhasesArg.toList, List.mem_singleton] at hf
    subst hf; exact ⟨_, _, _, rfl⟩) (polyOf_new ringB)

/-- C110 is not vacuous: a crystal from the constructor has a peak on a detector orthogonal to the beam, at `cos 2θ = 4/5`. -/
theorem debye_hits : ∃ d p', Program (xOf ringB) (polyOf ringB) ∧ (polyOf ringB).diffract (xOf ringB) demoBeam demoZ 0 (Real.pi / 2) none = .ok (d, p') ∧
    (ringDet.peaksIntersection d 1).peaks ≠ [] ∧ ∀ row ∈ (ringDet.peaksIntersection d 1).peaks,
      HasV (ringDet.peaksIntersection d 1).columns row "K_out_x" "K_out_y" "K_out_z" ⟨4/5, 0, 3/5⟩ ∧
      Has (ringDet.peaksIntersection d 1).columns row "grain_index" (fin (0 : ℕ)) ∧
      Has (ringDet.peaksIntersection d 1).columns row "phase_number" (fin (0 : ℕ)) ∧
      HasV (ringDet.peaksIntersection d 1).columns row "h" "k" "l" ⟨1, 0, 0⟩ := by
  obtain ⟨d, hd, hcol, -, t, ht, hpk⟩ := tangent_scene 1 ringB (sceneMesh.espherecentroids.getD 0 0) ((polyOf ringB).meshVolumes.getD 0 0)
    ⟨[1, 1, 1, 90, 90, 90], "P1", none, [⟨1, 0, 0⟩], none⟩ rfl rfl demoZ rfl norm_ez rfl rfl scene_sphere ring_roots
  set c : Crystal := ⟨.torch, [0], [⟨[1, 1, 1, 90, 90, 90], "P1", none, [⟨1, 0, 0⟩], none⟩], [1], [ringB],
          [sceneMesh.espherecentroids.getD 0 0], [(polyOf ringB).meshVolumes.getD 0 0]⟩ with hcdef
  have hdd : ∃ p', (polyOf ringB).diffract (xOf ringB) demoBeam demoZ 0 (Real.pi / 2) none = .ok (d, p') := by
    refine ⟨{ polyOf ringB with phases := [⟨[1, 1, 1, 90, 90, 90], "P1", none, [⟨1, 0, 0⟩], none⟩] }, ?_⟩
    unfold Polycrystal.diffract
    simp only [Polycrystal.limits]
    have hph : (polyOf ringB).setupPhases (xOf ringB) demoBeam.wavelength 0 (Real.pi / 2) =
        { polyOf ringB with phases := [⟨[1, 1, 1, 90, 90, 90], "P1", none, [⟨1, 0, 0⟩], none⟩] } := by
      simp only [Polycrystal.setupPhases, polyOf, List.map]; rw [ring_setup]
    rw [hph]
    have hcr : Polycrystal.crystal { polyOf ringB with phases := [⟨[1, 1, 1, 90, 90, 90], "P1", none, [⟨1, 0, 0⟩], none⟩] } = c := rfl
    rw [hcr, hd]
  obtain ⟨p', hdd⟩ := hdd
  have hG : c.G0 0 ⟨1, 0, 0⟩ = ⟨-3/25, 4/25, 3/5⟩ := by
    ext <;> simp [hcdef, Crystal.G0, getG, HKL.toV, ringB, mulVec, vecMul, V3.dot]
  have hK : demoZ.rotate1 (c.G0 0 ⟨1, 0, 0⟩) t + demoBeam.waveVector = ⟨4/5, 0, 3/5⟩ := by
    rw [hG, ring_rot ht]; ext <;> simp [demoBeam] <;> norm_num
  set S := demoZ.call1 (c.sphereCentroids.getD 0 0) t with hS
  have hSn : nsq S < 100 := by
    rw [hS, call1_nsq norm_ez rfl rfl]; exact scene_sphere
  have hx2 : S.x ^ 2 < 100 ∧ S.y ^ 2 < 100 ∧ S.z ^ 2 < 100 := by
    simp only [nsq, V3.dot] at hSn
    refine ⟨?_, ?_, ?_⟩ <;> nlinarith [sq_nonneg S.x, sq_nonneg S.y, sq_nonneg S.z]
  obtain ⟨hx, hy, hz⟩ := hx2
  have hx' := abs_lt_of_sq_lt_sq' (by rw [show (100:ℝ) = 10 ^ 2 by norm_num] at hx; exact hx) (by norm_num)
  have hy' := abs_lt_of_sq_lt_sq' (by rw [show (100:ℝ) = 10 ^ 2 by norm_num] at hy; exact hy) (by norm_num)
  have hz' := abs_lt_of_sq_lt_sq' (by rw [show (100:ℝ) = 10 ^ 2 by norm_num] at hz; exact hz) (by norm_num)
  have hgood : ∀ row ∈ d.peaks, Spec.GoodRow row := (diffract_good c demoBeam demoZ d (by
    intro ph hph
    simp only [hcdef, List.mem_singleton] at hph
    subst hph; intro f hf; cases hf) hd).2
  have hrowsEq := peaksIntersection_rows ringDet d 1 (fun q hq => (hgood q hq).1)
  have hkeep : ∀ q ∈ d.peaks, (ringDet.contains ((ringDet.rowIntersect q).getD 0 nan) ((ringDet.rowIntersect q).getD 1 nan) ∧
      (ringDet.rowIntensity q).IsFinite ∧ (fin 0).Lt (ringDet.rowIntensity q)) := by
    intro q hq
    have hq' : ∃ idx : ℕ, q = row24 c demoBeam demoZ 0 0 ⟨1, 0, 0⟩ 1 t ++ [fin (idx : ℕ)] := by
      rw [hpk] at hq; simp only [List.mem_cons, List.not_mem_nil, or_false] at hq
      rcases hq with h | h <;> exact ⟨_, h⟩
    obtain ⟨idx, rfl⟩ := hq'
    have hri : ringDet.rowIntersect (row24 c demoBeam demoZ 0 0 ⟨1, 0, 0⟩ 1 t ++ [fin (idx : ℕ)]) =
        [(ringDet.intersect ⟨4/5, 0, 3/5⟩ S).1, (ringDet.intersect ⟨4/5, 0, 3/5⟩ S).2.1, (ringDet.intersect ⟨4/5, 0, 3/5⟩ S).2.2] := by
      rw [← hK]; unfold Detector.rowIntersect; rfl
    have hint : ringDet.rowIntensity (row24 c demoBeam demoZ 0 0 ⟨1, 0, 0⟩ 1 t ++ [fin (idx : ℕ)]) = fin 1 := by
      rw [rowIntensity_spec]
      show Spec.intensity true false false (fin 1) _ _ = fin 1
      simp [Spec.intensity]
    rw [hri, hint]
    refine ⟨?_, trivial, by simp⟩
    refine (C21_every_hit_is_found _ _ _ _ _ _ _ _ _ _ _ ringDet ringDet_new (by simp [V3.dot]) ⟨4/5, 0, 3/5⟩ S
      ((S.z + (100 - S.x) * (3/4) + 100) / 200) ((S.y + 100) / 200) ⟨?_, ?_, ?_, ?_, ?_, (100 - S.x) / (4/5), ?_, ?_⟩).2.2
    · norm_num [V3.dot, V3.cross]
    · linarith
    · linarith
    · linarith
    · linarith
    · apply div_nonneg <;> linarith
    · ext <;> simp <;> ring
  have hfilter := List.filter_eq_self.mpr (fun q hq => decide_eq_true (hkeep q hq))
  refine ⟨d, p', program_ring, hdd, ?_, ?_⟩
  · rw [hrowsEq]
    intro h
    rw [List.map_eq_nil_iff, hfilter, hpk] at h
    exact absurd h (by simp)
  · intro row hrow
    rw [hrowsEq] at hrow
    obtain ⟨q, hq, rfl⟩ := List.mem_map.mp hrow
    have hq := (List.mem_filter.mp hq).1
    have hq' : ∃ idx : ℕ, q = row24 c demoBeam demoZ 0 0 ⟨1, 0, 0⟩ 1 t ++ [fin (idx : ℕ)] := by
      rw [hpk] at hq; simp only [List.mem_cons, List.not_mem_nil, or_false] at hq
      rcases hq with h | h <;> exact ⟨_, h⟩
    obtain ⟨idx, rfl⟩ := hq'
    have hcol' : (ringDet.peaksIntersection d 1).columns = peakColumns ++ ["zd", "yd", "incident_angle", "frame", "intensity_factors"] := by
      show d.columns ++ _ = _; rw [hcol]
    rw [hcol', ← hK]
    refine ⟨⟨⟨13, rfl, rfl⟩, ⟨14, rfl, rfl⟩, ⟨15, rfl, rfl⟩⟩, ⟨0, rfl, rfl⟩, ⟨1, rfl, rfl⟩, ⟨2, rfl, ?_⟩, ⟨3, rfl, ?_⟩, ⟨4, rfl, ?_⟩⟩ <;>
      simp [row30, row24, row10]

end XRD
