import Verif.Props.BeamSize

/-! Property C79: an element inside the beam contributes its peaks. -/

namespace XRD
open V3 M3 Fl Spec
open scoped Classical

/-- the inside of a beam is convex, and a motion is affine -/
theorem inBeam_element {b : Beam} {m : Motion} {t : ℝ} {q : Q4 V3} {c : V3} (hc : InElement q c)
    (h : ∀ j < 4, InBeam b (m.call1 (q.get j) t)) : InBeam b (m.call1 c t) := by
  obtain ⟨u, v, w, x, hu, hv, hw, hx, h1, rfl⟩ := hc
  intro f hf
  have e0 := h 0 (by norm_num) f hf
  have e1 := h 1 (by norm_num) f hf
  have e2 := h 2 (by norm_num) f hf
  have e3 := h 3 (by norm_num) f hf
  simp only [Q4.get] at e0 e1 e2 e3
  have hu' : u = 1 - v - w - x := by linarith
  have e : f.n.dot (m.call1 (u • q.a + v • q.b + w • q.c + x • q.d) t) + f.d =
      u * (f.n.dot (m.call1 q.a t) + f.d) + v * (f.n.dot (m.call1 q.b t) + f.d) +
      w * (f.n.dot (m.call1 q.c t) + f.d) + x * (f.n.dot (m.call1 q.d t) + f.d) := by
    subst hu'
    simp only [Motion.call1, mulVec, V3.dot, V3.add_x, V3.add_y, V3.add_z, V3.sub_x, V3.sub_y, V3.sub_z, V3.smul_x, V3.smul_y,
      V3.smul_z]
    ring
  rw [e]
  by_contra hn
  push Not at hn
  have k0 := mul_nonneg hu (neg_nonneg.2 e0.le)
  have k1 := mul_nonneg hv (neg_nonneg.2 e1.le)
  have k2 := mul_nonneg hw (neg_nonneg.2 e2.le)
  have k3 := mul_nonneg hx (neg_nonneg.2 e3.le)
  have z0 : u * -(f.n.dot (m.call1 q.a t) + f.d) = 0 := by nlinarith
  have z1 : v * -(f.n.dot (m.call1 q.b t) + f.d) = 0 := by nlinarith
  have z2 : w * -(f.n.dot (m.call1 q.c t) + f.d) = 0 := by nlinarith
  have z3 : x * -(f.n.dot (m.call1 q.d t) + f.d) = 0 := by nlinarith
  have y0 := (mul_eq_zero.1 z0).resolve_right (by linarith)
  have y1 := (mul_eq_zero.1 z1).resolve_right (by linarith)
  have y2 := (mul_eq_zero.1 z2).resolve_right (by linarith)
  have y3 := (mul_eq_zero.1 z3).resolve_right (by linarith)
  linarith

/-- C79 (partial).  Take any peak that some beam `b'` of the same direction, wavelength and polarization shows, of element
`e` at time `t`.  If at that time the four vertices of the element are strictly inside the beam `b`, and the centre of the
element's bounding sphere is a point of the element, then `b` shows the same peak.  Missing: elements that do not contain
the centre of their bounding sphere, for which the claim is false (`C79_element_inside_fails`). -/
theorem C79_inside_reported_partial {b b' : Beam} (hray : SameRay b b') (x : Xfab)
    (hx : ∀ h cell sg cif, (x.sfBatch h cell sg cif).length = h.length) (p : Polycrystal) (hph : ∀ ph ∈ p.phases, ph.Fresh) (m : Motion)
    (lo hi : ℝ) (d d' : PeaksDict) (p1 p2 : Polycrystal) (h : p.diffract x b m lo hi none = .ok (d, p1))
    (h' : p.diffract x b' m lo hi none = .ok (d', p2)) (row : List Fl) (hrow : row ∈ d'.peaks) (e : ℕ) (t : ℝ)
    (he : Has d'.columns row "grain_index" (fin e)) (ht : Has d'.columns row "diffraction_times" (fin t))
    (nodes : Q4 ℕ) (q : Q4 V3) (c : V3) (hn : p.meshLab.enod[e]? = some nodes)
    (hq : ∀ j < 4, p.meshLab.coord[nodes.get j]? = some (q.get j)) (hc : p.meshLab.espherecentroids[e]? = some c)
    (hin : InElement q c) (hb : ∀ j < 4, InBeam b (m.call1 (q.get j) t)) :
    ∃ row' ∈ d.peaks, row'.dropLast = row.dropLast := by
  obtain ⟨lo', hi', hl, rfl, hcore⟩ := Polycrystal.diffract_ok h
  obtain ⟨lo'', hi'', hl', rfl, hcore'⟩ := Polycrystal.diffract_ok h'
  have hl := Except.ok.inj hl
  have hl' := Except.ok.inj hl'
  simp only [Prod.mk.injEq] at hl hl'
  obtain ⟨rfl, rfl⟩ := hl
  obtain ⟨rfl, rfl⟩ := hl'
  obtain ⟨q1, q2, q3⟩ := sameRay_eqs hray
  have hcons : ∀ ph ∈ (p.setupPhases x b'.wavelength lo hi).crystal.phases, ph.Consistent := by
    intro ph hh
    obtain ⟨ph0, h0, rfl⟩ := List.mem_map.mp hh
    exact Phase.setup_consistent hx (hph _ h0) _ _ _
  obtain ⟨e', i, ph, n, hkl, w, t', idx, hrefl, hfound, -, rfl⟩ := mem_diffract hcons hcore' hrow
  rw [diffract_columns hcore'] at he ht
  rw [q2] at hcore
  have hee : e' = e := by
    have := (has_iff 0 rfl).mp he
    exact_mod_cast Fl.fin.inj (Option.some.inj this)
  have htt : t' = t := Fl.fin.inj (Option.some.inj ((has_iff 6 rfl).mp ht))
  subst hee htt
  have hs : (p.setupPhases x b'.wavelength lo hi).crystal.sphereCentroids.getD e' 0 = c := by
    show p.meshLab.espherecentroids.getD e' 0 = c
    rw [List.getD_eq_getElem?_getD, hc]; rfl
  have hf : Found b m ((p.setupPhases x b'.wavelength lo hi).crystal.G0 e' hkl) t' := by
    unfold Found at hfound ⊢
    rw [q1]; exact hfound
  obtain ⟨idx', hr⟩ := mem_diffract_of hcons hcore hrefl hf (by rw [hs]; exact inBeam_element hin hb)
  refine ⟨_, hr, ?_⟩
  rw [List.dropLast_concat, List.dropLast_concat]
  unfold row24
  rw [q1, q2, q3]

theorem AffRot.comb {f : V3 → V3} {R : M3} (h : AffRot f R) (u v w x : ℝ) (h1 : u + v + w + x = 1) (a b c d : V3) :
    f (u • a + v • b + w • c + x • d) = u • f a + v • f b + w • f c + x • f d := by
  obtain ⟨-, T, hT⟩ := h
  rw [hT, hT, hT, hT, hT]
  have hu : u = 1 - v - w - x := by linarith
  subst hu
  ext <;> simp only [mulVec, V3.dot, V3.add_x, V3.add_y, V3.add_z, V3.smul_x, V3.smul_y, V3.smul_z] <;> ring

/-- in a crystal with any history, the bounding sphere of an element that contains the centre of the sphere through its
vertices is centred in the element -/
theorem built_centre {p : Polycrystal} (hp : Built p) {e : ℕ} {nodes : Q4 ℕ} {q : Q4 V3} (hn : p.meshLab.enod[e]? = some nodes)
    (hq : ∀ j < 4, p.meshLab.coord[nodes.get j]? = some (q.get j)) (hw : ∀ c r, OnSphere q c r → InElement q c) :
    ∃ c, p.meshLab.espherecentroids[e]? = some c ∧ InElement q c := by
  obtain ⟨x, coord, enod, mesh, o, s, ph, map, p0, hist, hmesh, hp0, hu, rfl⟩ := hp
  obtain ⟨f, R, hf, h1, h2, -, h4, -⟩ := p0.transforms_state hist hu
  obtain ⟨U, S, kind, pm, eB, -, -, -, -, rfl⟩ := Polycrystal.new_ok hp0
  rw [h1] at hq
  rw [h2] at hn
  rw [h4]
  dsimp only at hn hq ⊢
  have hen : mesh.enod = enod := by rw [(TetraMesh.new_ok hmesh).1]; rfl
  rw [hen] at hn
  obtain ⟨hi, rfl⟩ := List.getElem?_eq_some_iff.mp hn
  obtain ⟨t, c, r, k1, k2, -, k4⟩ := C77_smallest_spheres_partial coord enod mesh hmesh e hi
  have hqt : ∀ j < 4, q.get j = f (t.get j) := by
    intro j hj
    have := hq j hj
    rw [List.getElem?_map, k1 j hj] at this
    exact (Option.some.inj this).symm
  have qa := hqt 0 (by norm_num); have qb := hqt 1 (by norm_num); have qc := hqt 2 (by norm_num); have qd := hqt 3 (by norm_num)
  simp only [Q4.get] at qa qb qc qd
  refine ⟨f c, by rw [List.getElem?_map, k2]; rfl, ?_⟩
  rcases k4 with ⟨⟨u, v, w, x, hu, hv, hw, hx, hs, rfl⟩, -⟩ | ⟨-, hon⟩
  · refine ⟨u, v, w, x, hu, hv, hw, hx, hs, ?_⟩
    rw [qa, qb, qc, qd, hf.comb u v w x hs]
  · refine hw (f c) (r / 1.0001) ?_
    unfold OnSphere V3.dist at hon ⊢
    rw [qa, qb, qc, qd, hf.norm_sub, hf.norm_sub, hf.norm_sub, hf.norm_sub]
    exact hon

/-- C79 (partial), in terms of the element alone: it is enough that the centre of the sphere through the four vertices of
the element, where they are when `diffract` is called, is a point of the element (the crystal may have been moved any
number of times before).  Missing: flat elements, see `C79_element_inside_fails`. -/
theorem C79_well_centred_partial {b b' : Beam} (hray : SameRay b b') (x : Xfab)
    (hx : ∀ h cell sg cif, (x.sfBatch h cell sg cif).length = h.length) (p : Polycrystal) (hp : Built p)
    (hph : ∀ ph ∈ p.phases, ph.Fresh) (m : Motion)
    (lo hi : ℝ) (d d' : PeaksDict) (p1 p2 : Polycrystal) (h : p.diffract x b m lo hi none = .ok (d, p1))
    (h' : p.diffract x b' m lo hi none = .ok (d', p2)) (row : List Fl) (hrow : row ∈ d'.peaks) (e : ℕ) (t : ℝ)
    (he : Has d'.columns row "grain_index" (fin e)) (ht : Has d'.columns row "diffraction_times" (fin t))
    (nodes : Q4 ℕ) (q : Q4 V3) (hn : p.meshLab.enod[e]? = some nodes)
    (hq : ∀ j < 4, p.meshLab.coord[nodes.get j]? = some (q.get j)) (hw : ∀ c r, OnSphere q c r → InElement q c)
    (hb : ∀ j < 4, InBeam b (m.call1 (q.get j) t)) :
    ∃ row' ∈ d.peaks, row'.dropLast = row.dropLast := by
  obtain ⟨c, hc, hin⟩ := built_centre hp hn hq hw
  exact C79_inside_reported_partial hray x hx p hph m lo hi d d' p1 p2 h h' row hrow e t he ht nodes q c hn hq hc hin hb

/-! ### an element inside the beam that does not contribute -/

/-- corners of the cube `[-8,8]³` -/
def smallVertices : List V3 := [⟨-8, -8, -8⟩, ⟨-8, -8, 8⟩, ⟨-8, 8, -8⟩, ⟨-8, 8, 8⟩, ⟨8, -8, -8⟩, ⟨8, -8, 8⟩, ⟨8, 8, -8⟩, ⟨8, 8, 8⟩]
/-- its half-spaces -/
def smallFacets : List HalfSpace := [⟨⟨1, 0, 0⟩, -8⟩, ⟨⟨-1, 0, 0⟩, -8⟩, ⟨⟨0, 1, 0⟩, -8⟩, ⟨⟨0, -1, 0⟩, -8⟩, ⟨⟨0, 0, 1⟩, -8⟩, ⟨⟨0, 0, -1⟩, -8⟩]
/-- the beam `demoBeam` cut down to the cube `[-8,8]³` -/
noncomputable def smallBeam : Beam := ⟨⟨1, 0, 0⟩, 2 * Real.pi, smallVertices, 0, smallFacets, ⟨0, 0, 1⟩⟩
theorem smallBeam_new : Beam.new ⟨List.length, fun _ => smallFacets⟩ smallVertices ⟨1, 0, 0⟩ (2 * Real.pi) ⟨0, 0, 1⟩ = .ok smallBeam := by
  have hp := Real.pi_pos
  have n1 : norm (⟨1, 0, 0⟩ : V3) = 1 := by rw [norm_eq_one]; simp [nsq, V3.dot]
  have n2 : norm (⟨0, 0, 1⟩ : V3) = 1 := by rw [norm_eq_one]; simp [nsq, V3.dot]
  have hw : (2 * Real.pi / (2 * Real.pi)) • ((1 / (1:ℝ)) • (⟨1, 0, 0⟩ : V3)) = ⟨1, 0, 0⟩ := by
    rw [div_self (by positivity)]; ext <;> simp
  have hpol : (1 / (1:ℝ)) • (⟨0, 0, 1⟩ : V3) = ⟨0, 0, 1⟩ := by ext <;> simp
  unfold Beam.new
  dsimp only
  rw [if_neg (by positivity), if_neg (by simp), n1, n2, hw, hpol, if_neg, if_pos]
  · have : meanV smallVertices = 0 := by unfold meanV smallVertices; ext <;> simp
    rw [this]; rfl
  · norm_num [allclose, V3.dot]
  · rintro (h | h)
    · have := congrArg V3.x h; simp at this
    · have := congrArg V3.z h; simp at this
theorem smallBeam_contains {p : V3} (h : nsq p < 64) : InBeam smallBeam p := by
  simp only [nsq, V3.dot] at h
  intro f hf
  simp only [smallBeam, smallFacets, List.mem_cons, List.not_mem_nil, or_false] at hf
  rcases hf with rfl | rfl | rfl | rfl | rfl | rfl <;> simp only [V3.dot] <;>
    nlinarith [sq_nonneg p.x, sq_nonneg p.y, sq_nonneg p.z, sq_nonneg (p.x - 8), sq_nonneg (p.x + 8), sq_nonneg (p.y - 8),
      sq_nonneg (p.y + 8), sq_nonneg (p.z - 8), sq_nonneg (p.z + 8)]
theorem small_in_demo (s : V3) (h : InBeam smallBeam s) : InBeam demoBeam s := by
  have h1 := h ⟨⟨1, 0, 0⟩, -8⟩ (by simp [smallBeam, smallFacets])
  have h2 := h ⟨⟨-1, 0, 0⟩, -8⟩ (by simp [smallBeam, smallFacets])
  have h3 := h ⟨⟨0, 1, 0⟩, -8⟩ (by simp [smallBeam, smallFacets])
  have h4 := h ⟨⟨0, -1, 0⟩, -8⟩ (by simp [smallBeam, smallFacets])
  have h5 := h ⟨⟨0, 0, 1⟩, -8⟩ (by simp [smallBeam, smallFacets])
  have h6 := h ⟨⟨0, 0, -1⟩, -8⟩ (by simp [smallBeam, smallFacets])
  simp only [V3.dot] at h1 h2 h3 h4 h5 h6
  intro f hf
  simp only [demoBeam, cubeFacets, List.mem_cons, List.not_mem_nil, or_false] at hf
  rcases hf with rfl | rfl | rfl | rfl | rfl | rfl <;> simp only [V3.dot] <;> linarith
theorem small_ray : SameRay smallBeam demoBeam := ⟨_, _, _, _, _, _, _, smallBeam_new, demoBeam_new⟩

/-- the crystal of the scene, on any mesh -/
noncomputable def onMesh (mesh : TetraMesh) : Polycrystal :=
  { meshLab := mesh, meshSample := mesh, orientationLab := [1], orientationSample := [1], strainLab := [0],
    strainSample := [0], phases := [scenePhase], mapKind := .torch, phaseMap := [0], eB := [sceneB],
    meshVolumes := (elements mesh.coord mesh.enod).map tetVolume }
theorem onMesh_new (mesh : TetraMesh) (hl : mesh.enod.length = 1) :
    Polycrystal.new sceneX mesh (.one 1) (.one 0) (.one scenePhase) (some [0]) = .ok (onMesh mesh) := by
  have hg : grainIndices [0] 0 = [0] := by simp [grainIndices, List.range_succ]
  have h1 : (1 : M3).tr * (0 * 1) = 0 := by rw [tr_one, one_mul', mul_one']
  have hlab : labStrainToB [((0 : M3), (1 : M3))] sceneB = .ok [sceneB] := by
    unfold labStrainToB epsilonToBBatch
    rw [if_neg]
    · simp only [List.map, h1, batch, bOfStrain_zero]
    · rintro ⟨e, he, hn⟩
      simp only [List.map, h1, List.mem_cons, List.not_mem_nil, or_false] at he
      subst he
      exact feasible_no_neg zero_feasible.1 zero_feasible.2 hn
  have heB : instantiateEB sceneX 1 [1] [0] [scenePhase] [0] = .ok [sceneB] := by
    unfold instantiateEB
    rw [if_neg]
    · unfold eBLoop eBStep
      dsimp only
      simp only [hg, List.map, List.getD_cons_zero, sceneX, xOf, hlab]
      rfl
    · rintro ⟨i, hi, e, he, hle⟩
      simp only [List.length_singleton, Nat.lt_one_iff] at hi
      subst hi
      rw [hg] at he
      simp at he
      omega
  unfold Polycrystal.new
  dsimp only
  rw [hl]
  simp only [instantiateMat, instantiatePhase, PhasesArg.toList, List.replicate_one, heB]
  rfl

/-- the flat element of the counterexample -/
noncomputable abbrev flatPoly : Polycrystal := onMesh (flatMesh (1 / 14))
theorem flatPoly_centre : flatPoly.meshLab.espherecentroids = [⟨0, 12 / 7, 239 / 28⟩] := by
  have : flatPoly.meshLab.espherecentroids = [(sphereOf (flatTet (1 / 14))).1] := rfl
  rw [this, flat_sphere (1 / 14) (by norm_num) (by norm_num), flat_centre (1 / 14) (by norm_num)]
  norm_num
/-- what the phase of the scene becomes when the limits admit its reflection -/
noncomputable abbrev setPhase : Phase := ⟨[1, 1, 1, 90, 90, 90], "P1", none, [⟨1, 0, 0⟩], none⟩

/-- any one-element crystal of this kind whose bounding sphere is centred near the origin shows its peak in the large beam -/
theorem onMesh_diffract (mesh : TetraMesh) (sc : V3) (hs : mesh.espherecentroids = [sc]) (hsc : nsq sc < 100) (v : ℝ)
    (hv : (elements mesh.coord mesh.enod).map tetVolume = [v]) :
    ∃ d, (onMesh mesh).diffract sceneX demoBeam demoZ 0 (Real.pi / 2) none = .ok (d, { onMesh mesh with phases := [setPhase] }) ∧
      d.columns = peakColumns ∧ ∃ t, t * demoZ.angle = 2 * Real.arctan (1 / 2) ∧ d.peaks =
        [row24 { onMesh mesh with phases := [setPhase] }.crystal demoBeam demoZ 0 0 ⟨1, 0, 0⟩ 1 t ++ [fin (0 : ℕ)],
          row24 { onMesh mesh with phases := [setPhase] }.crystal demoBeam demoZ 0 0 ⟨1, 0, 0⟩ 1 t ++ [fin (1 : ℕ)]] := by
  have hcr : Polycrystal.crystal { onMesh mesh with phases := [setPhase] } = ⟨.torch, [0], [setPhase], [1], [sceneB], [sc], [v]⟩ := by
    unfold Polycrystal.crystal onMesh
    dsimp only
    rw [hs, hv]
  obtain ⟨d, hd, hcol, -, t, ht, hpk⟩ := tangent_scene 1 sceneB sc v setPhase rfl rfl demoZ rfl norm_ez rfl rfl hsc scene_roots
  refine ⟨d, ?_, hcol, t, by rw [mul_comm]; exact ht, ?_⟩
  · have h0 : Real.sin 0 ≤ Real.sqrt 2 / 2 := by rw [Real.sin_zero]; positivity
    have h1 : Real.sqrt 2 / 2 ≤ Real.sin (Real.pi / 2) := by
      rw [Real.sin_pi_div_two]
      have := Real.sqrt_le_sqrt (show (2 : ℝ) ≤ 4 by norm_num)
      rw [show (4 : ℝ) = 2 ^ 2 by norm_num, Real.sqrt_sq (by norm_num)] at this
      linarith
    have hph : (onMesh mesh).setupPhases sceneX demoBeam.wavelength 0 (Real.pi / 2) = { onMesh mesh with phases := [setPhase] } := by
      simp only [Polycrystal.setupPhases, onMesh, List.map]; rw [scene_setup 0 (Real.pi / 2) h0 h1]
    unfold Polycrystal.diffract Polycrystal.limits
    dsimp only
    rw [hph, hcr, hd]
  · rw [hcr]; exact hpk

theorem demoZ_z (v : V3) (t : ℝ) : (demoZ.call1 v t).z = v.z := by
  have e : demoZ.call1 v t = Spec.rotate ⟨0, 0, 1⟩ (demoZ.angle * t) v := by
    rw [← rotMat_eq_spec (by norm_num [nsq, V3.dot])]
    unfold Motion.call1
    ext <;> simp [demoZ]
  rw [e]
  simp [Spec.rotate, V3.dot, cross]; ring

/-- C79 is false of the code: an element, all of whose vertices stay strictly inside the beam `b` during the whole scan, and
which has a reflection that the larger beam `b'` of the same direction, wavelength and polarization shows, contributes no
peak with `b`.  The element is flat: the centre of its bounding sphere lies outside it, and outside `b`. -/
theorem C79_element_inside_fails :
    ∃ (b b' : Beam) (x : Xfab) (p : Polycrystal) (m : Motion) (d d' : PeaksDict) (p1 p2 : Polycrystal) (nodes : Q4 ℕ) (q : Q4 V3),
      SameRay b b' ∧ (∀ s, InBeam b s → InBeam b' s) ∧ Built p ∧ Motion.new ⟨0, 0, 1⟩ (Real.pi / 2) 0 0 = .ok m ∧
      p.diffract x b m 0 (Real.pi / 2) none = .ok (d, p1) ∧ p.diffract x b' m 0 (Real.pi / 2) none = .ok (d', p2) ∧
      p.meshLab.enod = [nodes] ∧ (∀ j < 4, p.meshLab.coord[nodes.get j]? = some (q.get j)) ∧
      (∀ t, ∀ j < 4, InBeam b (m.call1 (q.get j) t)) ∧
      (∃ row ∈ d'.peaks, Has d'.columns row "grain_index" (fin 0)) ∧ d.peaks = [] := by
  have hn : nsq (⟨0, 12 / 7, 239 / 28⟩ : V3) < 100 := by norm_num [nsq, V3.dot]
  obtain ⟨d', hd', hcol', t, ht, hpk'⟩ := onMesh_diffract (flatMesh (1 / 14)) ⟨0, 12 / 7, 239 / 28⟩ flatPoly_centre hn _ rfl
  have hsame := (C78_smaller_beam_filters small_ray small_in_demo sceneX flatPoly demoZ 0 (Real.pi / 2)).1
  rw [hd'] at hsame
  cases hd : flatPoly.diffract sceneX smallBeam demoZ 0 (Real.pi / 2) none with
  | error er => rw [hd] at hsame; cases hsame
  | ok dp =>
    obtain ⟨d, p1⟩ := dp
    refine ⟨smallBeam, demoBeam, sceneX, flatPoly, demoZ, d, d', p1, _, ⟨0, 1, 2, 3⟩, flatTet (1 / 14), small_ray, small_in_demo,
      ⟨sceneX, _, _, _, _, _, _, _, _, [], flatMesh_new (1 / 14) (by norm_num), onMesh_new _ rfl, by simp, rfl⟩, demoZ_new, hd, hd',
      rfl, ?_, ?_, ?_, ?_⟩
    · intro j hj
      interval_cases j <;> rfl
    · intro t j hj
      apply smallBeam_contains
      rw [call1_nsq norm_ez rfl rfl]
      interval_cases j <;> norm_num [flatTet, Q4.get, nsq, V3.dot]
    · refine ⟨_, by rw [hpk']; exact List.mem_cons_self, ?_⟩
      rw [hcol']
      exact ⟨0, rfl, by simp [row24]⟩
    · have hk := ((C78_smaller_beam_filters small_ray small_in_demo sceneX flatPoly demoZ 0 (Real.pi / 2)).2 _ _ _ _ hd hd').2
      rw [hpk', hcol'] at hk
      have hno : ¬ SourceIn smallBeam peakColumns
          (row24 { flatPoly with phases := [setPhase] }.crystal demoBeam demoZ 0 0 ⟨1, 0, 0⟩ 1 t) := by
        rintro ⟨s, hs, hin⟩
        have hz := (has_iff 18 rfl).mp hs.2.2
        have h5 := hin ⟨⟨0, 0, 1⟩, -8⟩ (by simp [smallBeam, smallFacets])
        have hsc : { flatPoly with phases := [setPhase] }.crystal.sphereCentroids = [⟨0, 12 / 7, 239 / 28⟩] := flatPoly_centre
        simp only [row24, hsc] at hz
        have hz' := Fl.fin.inj (Option.some.inj hz)
        rw [demoZ_z] at hz'
        simp only [List.getD_cons_zero] at hz'
        simp only [V3.dot] at h5
        rw [← hz'] at h5
        norm_num at h5
      simp only [List.map_cons, List.map_nil, List.dropLast_concat, List.filter_cons, hno, decide_false, List.filter_nil,
        Bool.false_eq_true, ↓reduceIte] at hk
      exact List.map_eq_nil_iff.1 hk

/-! ### an element that contributes -/

/-- a regular tetrahedron about the origin -/
def regCoord : List V3 := [⟨1, 1, 1⟩, ⟨1, -1, -1⟩, ⟨-1, 1, -1⟩, ⟨-1, -1, 1⟩]
def regTet : Tet := ⟨⟨1, 1, 1⟩, ⟨1, -1, -1⟩, ⟨-1, 1, -1⟩, ⟨-1, -1, 1⟩⟩
noncomputable def regMesh : TetraMesh := TetraMesh.ofData regCoord [⟨0, 1, 2, 3⟩]
theorem reg_volume : signedVolume regTet ≠ 0 := by norm_num [signedVolume, regTet, cross, V3.dot]
theorem regMesh_new : TetraMesh.new regCoord [⟨0, 1, 2, 3⟩] = .ok regMesh := by
  unfold TetraMesh.new
  rw [if_pos, if_pos]
  · rfl
  · intro t ht
    have : elements regCoord [⟨0, 1, 2, 3⟩] = [regTet] := rfl
    rw [this, List.mem_singleton] at ht
    rw [ht]; exact reg_volume
  · decide
theorem reg_centred (c : V3) (r : ℝ) (h : OnSphere regTet c r) : InElement regTet c := by
  obtain ⟨h1, h2, h3, h4⟩ := h
  unfold V3.dist at h1 h2 h3 h4
  have e1 := norm_eq_iff.1 (h2.trans h1.symm)
  have e2 := norm_eq_iff.1 (h3.trans h1.symm)
  have e3 := norm_eq_iff.1 (h4.trans h1.symm)
  simp only [regTet, nsq, V3.dot, V3.sub_x, V3.sub_y, V3.sub_z] at e1 e2 e3
  refine ⟨1 / 4, 1 / 4, 1 / 4, 1 / 4, by norm_num, by norm_num, by norm_num, by norm_num, by norm_num, ?_⟩
  ext <;> simp [regTet] <;> nlinarith
theorem reg_sphere : nsq (sphereOf regTet).1 < 100 := by
  have hin : InElement regTet (sphereOf regTet).1 := by
    rcases sphereOf_tight reg_volume with ⟨h, -⟩ | ⟨h, h'⟩
    · exact h
    · exact reg_centred _ _ h'
  obtain ⟨u, v, w, x, hu, hv, hw, hx, hs, he⟩ := hin
  rw [he]
  simp only [regTet, nsq, V3.dot, V3.add_x, V3.add_y, V3.add_z, V3.smul_x, V3.smul_y, V3.smul_z]
  have a1 : (u * 1 + v * 1 + w * -1 + x * -1) * (u * 1 + v * 1 + w * -1 + x * -1) ≤ 1 := by nlinarith
  have a2 : (u * 1 + v * -1 + w * 1 + x * -1) * (u * 1 + v * -1 + w * 1 + x * -1) ≤ 1 := by nlinarith
  have a3 : (u * 1 + v * -1 + w * -1 + x * 1) * (u * 1 + v * -1 + w * -1 + x * 1) ≤ 1 := by nlinarith
  linarith

/-- C78 and C79 are not vacuous: a crystal of one regular tetrahedron, inside both beams, meets all hypotheses, and the
theorem gives a peak in the smaller beam. -/
example : ∃ (d d' : PeaksDict) (p1 p2 : Polycrystal), Built (onMesh regMesh) ∧ SameRay smallBeam demoBeam ∧
    (∀ s, InBeam smallBeam s → InBeam demoBeam s) ∧ (onMesh regMesh).diffract sceneX smallBeam demoZ 0 (Real.pi / 2) none = .ok (d, p1) ∧
    (onMesh regMesh).diffract sceneX demoBeam demoZ 0 (Real.pi / 2) none = .ok (d', p2) ∧ d.peaks ≠ [] := by
  obtain ⟨d', hd', hcol', t, ht, hpk'⟩ := onMesh_diffract regMesh (sphereOf regTet).1 rfl reg_sphere _ rfl
  have hsame := (C78_smaller_beam_filters small_ray small_in_demo sceneX (onMesh regMesh) demoZ 0 (Real.pi / 2)).1
  rw [hd'] at hsame
  have hB : Built (onMesh regMesh) := ⟨sceneX, _, _, _, _, _, _, _, _, [], regMesh_new, onMesh_new _ rfl, by simp, rfl⟩
  cases hd : (onMesh regMesh).diffract sceneX smallBeam demoZ 0 (Real.pi / 2) none with
  | error er => rw [hd] at hsame; cases hsame
  | ok dp =>
    obtain ⟨d, p1⟩ := dp
    refine ⟨d, d', p1, _, hB, small_ray, small_in_demo, rfl, hd', ?_⟩
    have hrow : row24 { onMesh regMesh with phases := [setPhase] }.crystal demoBeam demoZ 0 0 ⟨1, 0, 0⟩ 1 t ++ [fin (0 : ℕ)] ∈ d'.peaks := by
      rw [hpk']; exact List.mem_cons_self
    obtain ⟨row', h1, -⟩ := C79_well_centred_partial small_ray sceneX (by intro h cell sg cif; simp [sceneX, xOf]) (onMesh regMesh) hB
      (by intro ph hph; simp [onMesh] at hph; rw [hph]; intro _; rfl) demoZ 0 (Real.pi / 2) d d' p1 _ hd hd' _ hrow 0 t
      (by rw [hcol']; exact ⟨0, rfl, by simp [row24]⟩) (by rw [hcol']; exact ⟨6, rfl, by simp [row24]⟩) ⟨0, 1, 2, 3⟩ regTet rfl
      (by intro j hj; interval_cases j <;> rfl) reg_centred
      (by
        intro j hj
        apply smallBeam_contains
        rw [call1_nsq norm_ez rfl rfl]
        interval_cases j <;> norm_num [regTet, Q4.get, nsq, V3.dot])
    intro h0
    rw [h0] at h1
    cases h1

/-! ### the two halves of the beam -/

/-- the half of the cube `[-10,10]³` with `g·y > 0` (`g = ±1`) -/
def halfVertices (g : ℝ) : List V3 := [⟨-10, 0, -10⟩, ⟨-10, 0, 10⟩, ⟨-10, 10 * g, -10⟩, ⟨-10, 10 * g, 10⟩, ⟨10, 0, -10⟩, ⟨10, 0, 10⟩,
  ⟨10, 10 * g, -10⟩, ⟨10, 10 * g, 10⟩]
def halfFacets (g : ℝ) : List HalfSpace :=
  [⟨⟨1, 0, 0⟩, -10⟩, ⟨⟨-1, 0, 0⟩, -10⟩, ⟨⟨0, g, 0⟩, -10⟩, ⟨⟨0, -g, 0⟩, 0⟩, ⟨⟨0, 0, 1⟩, -10⟩, ⟨⟨0, 0, -1⟩, -10⟩]
noncomputable def halfBeam (g : ℝ) : Beam :=
  ⟨⟨1, 0, 0⟩, 2 * Real.pi, halfVertices g, ⟨0, 5 * g, 0⟩, halfFacets g, ⟨0, 0, 1⟩⟩
theorem halfBeam_new (g : ℝ) :
    Beam.new ⟨List.length, fun _ => halfFacets g⟩ (halfVertices g) ⟨1, 0, 0⟩ (2 * Real.pi) ⟨0, 0, 1⟩ = .ok (halfBeam g) := by
  have hp := Real.pi_pos
  have n1 : norm (⟨1, 0, 0⟩ : V3) = 1 := by rw [norm_eq_one]; simp [nsq, V3.dot]
  have n2 : norm (⟨0, 0, 1⟩ : V3) = 1 := by rw [norm_eq_one]; simp [nsq, V3.dot]
  have hw : (2 * Real.pi / (2 * Real.pi)) • ((1 / (1:ℝ)) • (⟨1, 0, 0⟩ : V3)) = ⟨1, 0, 0⟩ := by
    rw [div_self (by positivity)]; ext <;> simp
  have hpol : (1 / (1:ℝ)) • (⟨0, 0, 1⟩ : V3) = ⟨0, 0, 1⟩ := by ext <;> simp
  unfold Beam.new
  dsimp only
  rw [if_neg (by positivity), if_neg (by simp), n1, n2, hw, hpol, if_neg, if_pos]
  · have : meanV (halfVertices g) = ⟨0, 5 * g, 0⟩ := by unfold meanV halfVertices; ext <;> simp; ring
    rw [this]; rfl
  · norm_num [allclose, V3.dot]
  · rintro (h | h)
    · have := congrArg V3.x h; simp at this
    · have := congrArg V3.z h; simp at this
theorem half_in (g : ℝ) (s : V3) (h : InBeam (halfBeam g) s) : 0 < g * s.y ∧ g * s.y < 10 ∧ s.x < 10 ∧ -10 < s.x ∧ s.z < 10 ∧ -10 < s.z := by
  have h1 := h ⟨⟨1, 0, 0⟩, -10⟩ (by simp [halfBeam, halfFacets])
  have h2 := h ⟨⟨-1, 0, 0⟩, -10⟩ (by simp [halfBeam, halfFacets])
  have h3 := h ⟨⟨0, g, 0⟩, -10⟩ (by simp [halfBeam, halfFacets])
  have h4 := h ⟨⟨0, -g, 0⟩, 0⟩ (by simp [halfBeam, halfFacets])
  have h5 := h ⟨⟨0, 0, 1⟩, -10⟩ (by simp [halfBeam, halfFacets])
  have h6 := h ⟨⟨0, 0, -1⟩, -10⟩ (by simp [halfBeam, halfFacets])
  simp only [V3.dot] at h1 h2 h3 h4 h5 h6
  refine ⟨?_, ?_, ?_, ?_, ?_, ?_⟩ <;> linarith
theorem half_in_demo (g : ℝ) (hg : g = 1 ∨ g = -1) (s : V3) (h : InBeam (halfBeam g) s) : InBeam demoBeam s := by
  obtain ⟨h1, h2, h3, h4, h5, h6⟩ := half_in g s h
  intro f hf
  simp only [demoBeam, cubeFacets, List.mem_cons, List.not_mem_nil, or_false] at hf
  rcases hg with rfl | rfl <;> rcases hf with rfl | rfl | rfl | rfl | rfl | rfl <;> simp only [V3.dot] <;> linarith

/-- the hypotheses of `C78_beam_tiles` are met by the two halves of the beam, and only the plane `y = 0` is lost -/
example : SameRay (halfBeam 1) demoBeam ∧ SameRay (halfBeam (-1)) demoBeam ∧ (∀ s, InBeam (halfBeam 1) s → InBeam demoBeam s) ∧
    (∀ s, InBeam (halfBeam (-1)) s → InBeam demoBeam s) ∧ (∀ s, ¬ (InBeam (halfBeam 1) s ∧ InBeam (halfBeam (-1)) s)) ∧
    ∀ s, InBeam demoBeam s → ¬ InBeam (halfBeam 1) s → ¬ InBeam (halfBeam (-1)) s → s.y = 0 := by
  refine ⟨⟨_, _, _, _, _, _, _, halfBeam_new 1, demoBeam_new⟩, ⟨_, _, _, _, _, _, _, halfBeam_new (-1), demoBeam_new⟩,
    half_in_demo 1 (Or.inl rfl), half_in_demo (-1) (Or.inr rfl), ?_, ?_⟩
  · rintro s ⟨h1, h2⟩
    have a := (half_in 1 s h1).1
    have b := (half_in (-1) s h2).1
    linarith
  · intro s h a b
    have h1 := h ⟨⟨1, 0, 0⟩, -10⟩ (by simp [demoBeam, cubeFacets])
    have h2 := h ⟨⟨-1, 0, 0⟩, -10⟩ (by simp [demoBeam, cubeFacets])
    have h3 := h ⟨⟨0, 1, 0⟩, -10⟩ (by simp [demoBeam, cubeFacets])
    have h4 := h ⟨⟨0, -1, 0⟩, -10⟩ (by simp [demoBeam, cubeFacets])
    have h5 := h ⟨⟨0, 0, 1⟩, -10⟩ (by simp [demoBeam, cubeFacets])
    have h6 := h ⟨⟨0, 0, -1⟩, -10⟩ (by simp [demoBeam, cubeFacets])
    simp only [V3.dot] at h1 h2 h3 h4 h5 h6
    rcases lt_trichotomy s.y 0 with hy | hy | hy
    · refine absurd ?_ b
      intro f hf
      simp only [halfBeam, halfFacets, List.mem_cons, List.not_mem_nil, or_false] at hf
      rcases hf with rfl | rfl | rfl | rfl | rfl | rfl <;> simp only [V3.dot] <;> linarith
    · exact hy
    · refine absurd ?_ a
      intro f hf
      simp only [halfBeam, halfFacets, List.mem_cons, List.not_mem_nil, or_false] at hf
      rcases hf with rfl | rfl | rfl | rfl | rfl | rfl <;> simp only [V3.dot] <;> linarith

end XRD
