import Verif.Lemmas.Polycrystal
import Verif.Props.Mesh2
import Verif.Props.Peaks2

/-! Properties C59, C20 (at the constructor), C10, C12, C63: construction and transformation of a polycrystal. -/

namespace XRD
open V3 M3 Fl Spec
open scoped Classical

/-! ### C59 -/

/-- C59: a `(3,3)` orientation and strain are repeated for every element, an `(N,3,3)` one is used as it is; each element is
given the lattice matrix of its own strain and its own phase, and elements of no phase get zero. -/
theorem C59_constructor_broadcasts (x : Xfab) (mesh : TetraMesh) (o s : MatArg) (ph : PhasesArg) (map : Option (List ℝ))
    (p : Polycrystal) (h : Polycrystal.new x mesh o s ph map = .ok p) :
    (∀ m, o = .one m → p.orientationLab = List.replicate mesh.enod.length m) ∧
    (∀ l, o = .many l → p.orientationLab = l) ∧
    (∀ m, s = .one m → p.strainLab = List.replicate mesh.enod.length m) ∧
    (∀ l, s = .many l → p.strainLab = l) ∧
    p.orientationLab.length = mesh.enod.length ∧ p.strainLab.length = mesh.enod.length ∧
    p.orientationSample = p.orientationLab ∧ p.strainSample = p.strainLab ∧ p.meshLab = mesh ∧ p.meshSample = mesh ∧
    (∀ l, map = some l → p.phaseMap = l) ∧ (map = none → p.phaseMap = List.replicate mesh.enod.length 0) := by
  obtain ⟨U, S, kind, pm, eB, hU, hS, hph, heB, rfl⟩ := Polycrystal.new_ok h
  refine ⟨?_, ?_, ?_, ?_, ?_, ?_, rfl, rfl, rfl, rfl, ?_, ?_⟩
  · rintro m rfl; exact (Except.ok.inj hU).symm
  · rintro l rfl; unfold instantiateMat at hU; dsimp only at hU; split_ifs at hU; exact (Except.ok.inj hU).symm
  · rintro m rfl; exact (Except.ok.inj hS).symm
  · rintro l rfl; unfold instantiateMat at hS; dsimp only at hS; split_ifs at hS; exact (Except.ok.inj hS).symm
  · unfold instantiateMat at hU
    cases o <;> dsimp only at hU
    · obtain rfl := Except.ok.inj hU; simp
    · split_ifs at hU with hl; obtain rfl := Except.ok.inj hU; exact hl
    · cases hU
  · unfold instantiateMat at hS
    cases s <;> dsimp only at hS
    · obtain rfl := Except.ok.inj hS; simp
    · split_ifs at hS with hl; obtain rfl := Except.ok.inj hS; exact hl
    · cases hS
  · rintro l rfl
    unfold instantiatePhase at hph
    have := Except.ok.inj hph
    simp only [Prod.mk.injEq] at this
    exact this.2.symm
  · rintro rfl
    unfold instantiatePhase at hph
    dsimp only at hph
    split_ifs at hph
    have := Except.ok.inj hph
    simp only [Prod.mk.injEq] at this
    exact this.2.symm

/-- C59: any other shape of orientation or strain, a batch of the wrong length, and several phases without a map raise
`ValueError`. -/
theorem C59_constructor_rejects (x : Xfab) (mesh : TetraMesh) (o s : MatArg) (ph : PhasesArg) (map : Option (List ℝ))
    (h : (o = .other ∨ ∃ l, o = .many l ∧ l.length ≠ mesh.enod.length) ∨
      (s = .other ∨ ∃ l, s = .many l ∧ l.length ≠ mesh.enod.length) ∨
      (map = none ∧ ∃ l, ph = .many l ∧ 1 < l.length)) :
    Polycrystal.new x mesh o s ph map = .error .valueError := by
  have key : ∀ a : MatArg, (∃ l, instantiateMat a mesh.enod.length = .ok l) ∨
      instantiateMat a mesh.enod.length = .error .valueError := by
    intro a
    cases a with
    | one m => exact Or.inl ⟨_, rfl⟩
    | many l =>
      by_cases hl : l.length = mesh.enod.length
      · left; unfold instantiateMat; dsimp only; rw [if_pos hl]; exact ⟨_, rfl⟩
      · right; unfold instantiateMat; dsimp only; rw [if_neg hl]
    | other => exact Or.inr rfl
  have bad : ∀ a : MatArg, (a = .other ∨ ∃ l, a = .many l ∧ l.length ≠ mesh.enod.length) →
      instantiateMat a mesh.enod.length = .error .valueError := by
    rintro a (rfl | ⟨l, rfl, hl⟩)
    · rfl
    · unfold instantiateMat; dsimp only; rw [if_neg hl]
  unfold Polycrystal.new
  dsimp only
  rcases key o with ⟨U, hU⟩ | hU
  · rw [hU]; dsimp only
    rcases h with h | h
    · rw [bad o h] at hU; cases hU
    rcases key s with ⟨S, hS⟩ | hS
    · rw [hS]; dsimp only
      rcases h with h | ⟨rfl, l, rfl, hl⟩
      · rw [bad s h] at hS; cases hS
      · have hp : instantiatePhase (PhasesArg.many l).toList none mesh.enod.length = .error .valueError := by
          unfold instantiatePhase
          exact if_pos hl
        rw [hp]
    · rw [hS]
  · rw [hU]

/-- C59: each element of a listed phase gets the lattice matrix of its own strain (in crystal coordinates) and of that
phase's unit cell. -/
theorem C59_lattice_matrix_of_own_phase (x : Xfab) (mesh : TetraMesh) (o s : MatArg) (ph : PhasesArg) (map : Option (List ℝ))
    (p : Polycrystal) (h : Polycrystal.new x mesh o s ph map = .ok p)
    (hs : ∀ e ∈ p.strainLab, Spec.Symmetric e) (hU : ∀ U ∈ p.orientationLab, IsRot U)
    (e i : ℕ) (U S : M3) (phase : Phase) (he : p.phaseMap[e]? = some (i : ℝ)) (hi : p.phases[i]? = some phase)
    (hUe : p.orientationLab[e]? = some U) (hSe : p.strainLab[e]? = some S) :
    ∃ B, p.eB[e]? = some B ∧ epsilonToB (U.tr * (S * U)) (x.formB phase.unitCell) = .ok B := by
  have hlen := C59_constructor_broadcasts x mesh o s ph map p h
  obtain ⟨U', S', kind, pm, eB, hU', hS', hph, heB, rfl⟩ := Polycrystal.new_ok h
  unfold instantiateEB at heB
  split_ifs at heB with hc
  have hmem : e ∈ grainIndices pm (0 + i) := by rw [mem_grainIndices, Nat.zero_add]; exact he
  have hlt : e < mesh.enod.length := by
    have := (List.getElem?_eq_some_iff.mp hUe).1
    rw [hlen.2.2.2.2.1] at this; exact this
  obtain ⟨B, hB, hBe⟩ := (eBLoop_spec _ _ _ _ heB).2.2 i phase hi e hmem (by simpa using hlt)
  have h1 : U'.getD e 0 = U := by rw [List.getD_eq_getElem?_getD]; rw [hUe]; rfl
  have h2 : S'.getD e 0 = S := by rw [List.getD_eq_getElem?_getD]; rw [hSe]; rfl
  rw [h1, h2] at hB
  refine ⟨B, hBe, ?_⟩
  have hsym := crystal_symm (U := U) (hs S (List.mem_of_getElem? hSe))
  unfold epsilonToB
  rw [if_neg, hB]
  apply feasible_no_neg hsym
  rw [feasible_iff_cholesky hsym]
  unfold bOfStrain at hB
  split at hB
  · cases hB
  · rename_i L hL; exact ⟨L, hL⟩

/-- C20: with admissible shapes, symmetric strains and rotation matrices, the constructor accepts the crystal exactly when
every element that belongs to a phase has a feasible strain. -/
theorem C20_constructor_accepts_iff_feasible (x : Xfab) (mesh : TetraMesh) (U S : List M3) (ph : PhasesArg) (map : List ℝ)
    (hUl : U.length = mesh.enod.length) (hSl : S.length = mesh.enod.length) (hml : map.length ≤ mesh.enod.length)
    (hs : ∀ e ∈ S, Spec.Symmetric e) (hU : ∀ u ∈ U, IsRot u) :
    (∃ p, Polycrystal.new x mesh (.many U) (.many S) ph (some map) = .ok p) ↔
      ∀ (e i : ℕ) (strain : M3), map[e]? = some (i : ℝ) → i < ph.toList.length → S[e]? = some strain → Feasible strain := by
  have hidx : ¬ ∃ i < ph.toList.length, ∃ e ∈ grainIndices map i, mesh.enod.length ≤ e := by
    rintro ⟨i, _, e, he, hle⟩
    rw [mem_grainIndices] at he
    have := (List.getElem?_eq_some_iff.mp he).1
    omega
  have hnew : (∃ p, Polycrystal.new x mesh (.many U) (.many S) ph (some map) = .ok p) ↔
      ∃ eB, eBLoop x U S map (List.replicate mesh.enod.length 0) 0 ph.toList = .ok eB := by
    have a1 : instantiateMat (.many U) mesh.enod.length = .ok U := if_pos hUl
    have a2 : instantiateMat (.many S) mesh.enod.length = .ok S := if_pos hSl
    have a3 : instantiateEB x mesh.enod.length U S ph.toList map =
        eBLoop x U S map (List.replicate mesh.enod.length 0) 0 ph.toList := if_neg hidx
    unfold Polycrystal.new
    dsimp only
    rw [a1]; dsimp only
    rw [a2]; dsimp only [instantiatePhase]
    rw [a3]
    cases eBLoop x U S map (List.replicate mesh.enod.length 0) 0 ph.toList <;> simp
  rw [hnew, eBLoop_ok]
  have hpair : ∀ i, (∀ p ∈ (grainIndices map (0 + i)).map (fun e => (S.getD e 0, U.getD e 0)), Spec.Symmetric p.1 ∧ IsRot p.2) := by
    intro i p hp
    obtain ⟨e, he, rfl⟩ := List.mem_map.mp hp
    rw [mem_grainIndices] at he
    have hlt : e < mesh.enod.length := lt_of_lt_of_le (List.getElem?_eq_some_iff.mp he).1 hml
    constructor
    · dsimp only; rw [List.getD_eq_getElem _ _ (by omega)]; exact hs _ (List.getElem_mem _)
    · dsimp only; rw [List.getD_eq_getElem _ _ (by omega)]; exact hU _ (List.getElem_mem _)
  constructor
  · intro h e i strain he hi hSe
    obtain ⟨hi', hp⟩ : ∃ q, ph.toList[i]? = some q := ⟨_, List.getElem?_eq_getElem hi⟩
    have := (C20_batch_accepted_iff_feasible _ _ (fun p hp => (hpair i p hp).1) (fun p hp => (hpair i p hp).2)).mp
      (h i _ hp)
    have := this (S.getD e 0, U.getD e 0) (List.mem_map.mpr ⟨e, by rw [mem_grainIndices, Nat.zero_add]; exact he, rfl⟩)
    dsimp only at this
    rw [List.getD_eq_getElem?_getD, hSe] at this
    exact this
  · intro h j phase hj
    rw [C20_batch_accepted_iff_feasible _ _ (fun p hp => (hpair j p hp).1) (fun p hp => (hpair j p hp).2)]
    intro p hp
    obtain ⟨e, he, rfl⟩ := List.mem_map.mp hp
    rw [mem_grainIndices, Nat.zero_add] at he
    have hlt : e < mesh.enod.length := lt_of_lt_of_le (List.getElem?_eq_some_iff.mp he).1 hml
    apply h e j _ he (List.getElem?_eq_some_iff.mp hj).1
    dsimp only
    rw [List.getD_eq_getElem _ _ (by omega), List.getElem?_eq_getElem]

/-! ### C10 -/

/-- Apply a history of transforms, each a motion and a time. -/
noncomputable def Polycrystal.transforms (p : Polycrystal) (h : List (Motion × ℝ)) : Polycrystal :=
  h.foldl (fun q mt => q.transform mt.1 mt.2) p

theorem Polycrystal.transforms_state (p : Polycrystal) (h : List (Motion × ℝ)) (hu : ∀ mt ∈ h, norm mt.1.axis = 1) :
    ∃ (f : V3 → V3) (R : M3), AffRot f R ∧
      (p.transforms h).meshLab.coord = p.meshLab.coord.map f ∧
      (p.transforms h).meshLab.enod = p.meshLab.enod ∧
      (p.transforms h).meshLab.eradius = p.meshLab.eradius ∧
      (p.transforms h).meshLab.espherecentroids = p.meshLab.espherecentroids.map f ∧
      (p.transforms h).orientationLab = p.orientationLab.map (R * ·) ∧
      (p.transforms h).strainLab = p.strainLab.map (fun s => R * s * R.tr) ∧
      (p.transforms h).meshVolumes = p.meshVolumes ∧ (p.transforms h).eB = p.eB ∧
      (p.transforms h).meshSample = p.meshSample ∧ (p.transforms h).orientationSample = p.orientationSample ∧
      (p.transforms h).strainSample = p.strainSample ∧ (p.transforms h).phases = p.phases ∧
      (p.transforms h).phaseMap = p.phaseMap ∧ (p.transforms h).mapKind = p.mapKind := by
  induction h generalizing p with
  | nil =>
    refine ⟨id, 1, ⟨M3.isRot_one, 0, fun q => ?_⟩, ?_⟩
    · rw [one_mulVec, add_zero]; rfl
    · simp [Polycrystal.transforms, tr_one, one_mul', mul_one']
  | cons mt h ih =>
    obtain ⟨f, R, hf, h1, h2, h3, h4, h5, h6, h7, h8, h9, h10, h11, h12, h13, h14⟩ :=
      ih (p.transform mt.1 mt.2) (fun a ha => hu a (List.mem_cons_of_mem _ ha))
    have hR1 := call1_affRot mt.1 (hu mt List.mem_cons_self) mt.2
    set g : V3 → V3 := fun q => mt.1.call1 q mt.2 with hg
    set R1 := rotMat mt.1.axis (mt.1.angle * mt.2) with hR1d
    have hcomp : AffRot (f ∘ g) (R * R1) := by
      obtain ⟨rf, tf, htf⟩ := hf
      obtain ⟨rg, tg, htg⟩ := hR1
      refine ⟨⟨?_, ?_, ?_⟩, R.mulVec tg + tf, ?_⟩
      · rw [tr_mul, mul_assoc', ← mul_assoc' R.tr, rf.1, one_mul', rg.1]
      · rw [tr_mul, mul_assoc', ← mul_assoc' R1, rg.2.1, one_mul', rf.2.1]
      · rw [det_mul, rf.2.2, rg.2.2, mul_one]
      · intro q; rw [Function.comp, htf, htg, mulVec_mul, mulVec_add, add_assoc]
    have ht : p.transforms (mt :: h) = (p.transform mt.1 mt.2).transforms h := rfl
    rw [ht]
    refine ⟨f ∘ g, R * R1, hcomp, ?_, h2, h3, ?_, ?_, ?_, h7, h8, h9, h10, h11, h12, h13, h14⟩
    · rw [h1]; simp [Polycrystal.transform, TetraMesh.update, hg]
    · rw [h4]; simp [Polycrystal.transform, TetraMesh.update, hg]
    · rw [h5]; simp [Polycrystal.transform, mul_assoc', hR1d]
    · rw [h6]; simp [Polycrystal.transform, mul_assoc', hR1d, tr_mul]

theorem trace_conj {R s : M3} (h : IsRot R) : (R * s * R.tr).trace = s.trace := by
  have hc : ∀ a b : M3, (a * b).trace = (b * a).trace := by
    intro a b; simp [trace, vecMul]; ring
  rw [hc, ← mul_assoc', h.1, one_mul']

/-- C10: after any sequence of transforms there is one rigid map `f`, with rotation part `R`, carrying the whole sample:
nodes and sphere centres move by `f`; orientations become `R U` (and stay rotations), strains `R ε Rᵀ`; crystal-frame
strain, trace and determinant of the strain, element volumes (stored and true) and bounding radii do not change, and neither
do the sample-frame mesh, orientation and strain. -/
theorem C10_transform_invariants (x : Xfab) (mesh : TetraMesh) (o s : MatArg) (ph : PhasesArg) (map : Option (List ℝ))
    (p : Polycrystal) (hp : Polycrystal.new x mesh o s ph map = .ok p)
    (hin : ∀ e ∈ mesh.enod, ∀ i ∈ e.toList, i < mesh.coord.length)
    (h : List (Motion × ℝ)) (hu : ∀ mt ∈ h, norm mt.1.axis = 1) :
    ∃ (f : V3 → V3) (R : M3), RigidMap f ∧ (∀ a v, f (a + v) = f a + R.mulVec v) ∧
      (p.transforms h).meshLab.coord = mesh.coord.map f ∧
      (p.transforms h).meshLab.espherecentroids = mesh.espherecentroids.map f ∧
      (p.transforms h).meshLab.eradius = mesh.eradius ∧
      (p.transforms h).meshVolumes = p.meshVolumes ∧
      (p.transforms h).meshVolumes = (elements (p.transforms h).meshLab.coord (p.transforms h).meshLab.enod).map tetVolume ∧
      (p.transforms h).orientationLab.length = p.orientationLab.length ∧
      (p.transforms h).strainLab.length = p.strainLab.length ∧
      (∀ (e : ℕ) (U ε U' ε' : M3), p.orientationLab[e]? = some U → p.strainLab[e]? = some ε →
        (p.transforms h).orientationLab[e]? = some U' → (p.transforms h).strainLab[e]? = some ε' →
        U' = R * U ∧ ε' = R * ε * R.tr ∧ (IsRot U → IsRot U') ∧ U'.tr * ε' * U' = U.tr * ε * U ∧
        ε'.trace = ε.trace ∧ ε'.det = ε.det ∧ (Spec.Symmetric ε → Spec.Symmetric ε')) ∧
      (p.transforms h).meshSample = mesh ∧ (p.transforms h).orientationSample = p.orientationSample ∧
      (p.transforms h).strainSample = p.strainSample := by
  obtain ⟨f, R, hf, h1, h2, h3, h4, h5, h6, h7, h8, h9, h10, h11, -, -, -⟩ := p.transforms_state h hu
  obtain ⟨U0, S0, kind, pm, eB, hU, hS, hph, heB, rfl⟩ := Polycrystal.new_ok hp
  have hR := hf.1
  refine ⟨f, R, ⟨?_, ?_⟩, hf.add_vec, h1, h4, h3, h7, ?_, by rw [h5]; simp, by rw [h6]; simp, ?_, h9, h10, h11⟩
  · intro a b; unfold V3.dist; exact hf.norm_sub a b
  · intro a b c d
    rw [hf.sub, hf.sub, hf.sub, IsRot.cross_mulVec hR, M3.IsRot.dot_mulVec hR.1]
  · rw [h7, h1, h2, elements_map hin, List.map_map]
    apply List.map_congr_left
    intro t _
    simp only [Function.comp, tetVolume_eq, signedVolume_map hf]
  · intro e U ε U' ε' hUe hεe hU'e hε'e
    rw [h5, List.getElem?_map, hUe] at hU'e
    rw [h6, List.getElem?_map, hεe] at hε'e
    obtain rfl := Option.some.inj hU'e
    obtain rfl := Option.some.inj hε'e
    refine ⟨rfl, rfl, ?_, ?_, trace_conj hR, ?_, ?_⟩
    · rintro ⟨a, b, c⟩
      refine ⟨?_, ?_, ?_⟩
      · rw [tr_mul, mul_assoc', ← mul_assoc' R.tr, hR.1, one_mul', a]
      · rw [tr_mul, mul_assoc', ← mul_assoc' U, b, one_mul', hR.2.1]
      · rw [det_mul, hR.2.2, c, mul_one]
    · rw [tr_mul]
      simp only [mul_assoc']
      rw [← mul_assoc' R.tr R U, hR.1, one_mul', ← mul_assoc' R.tr R (ε * U), hR.1, one_mul']
    · rw [det_mul, det_mul, det_tr, hR.2.2, mul_one, one_mul]
    · intro hs
      unfold Spec.Symmetric at *
      rw [tr_mul, tr_mul, tr_tr, hs]
      exact (mul_assoc' _ _ _).symm

/-! ### C12 -/

/-- C12: if a peak of the transformed crystal and a peak of the original crystal (from any two diffraction calls, with any
beams, motions and limits) belong to the same element and Miller indices, the first one's `G0` is the second one's rotated
by `t·angle` about the motion's axis. -/
theorem C12_transform_rotates_diffraction_vectors (x : Xfab) (hx : ∀ h cell sg cif, (x.sfBatch h cell sg cif).length = h.length)
    (p : Polycrystal) (hph : ∀ ph ∈ p.phases, ph.Fresh) (m : Motion) (hm : norm m.axis = 1) (t : ℝ)
    (b1 b2 : Beam) (m1 m2 : Motion) (lo1 hi1 lo2 hi2 : ℝ) (det1 det2 : Option Detector) (d1 d2 : PeaksDict) (p1 p2 : Polycrystal)
    (h1 : p.diffract x b1 m1 lo1 hi1 det1 = .ok (d1, p1))
    (h2 : (p.transform m t).diffract x b2 m2 lo2 hi2 det2 = .ok (d2, p2))
    (row1 row2 : List Fl) (hr1 : row1 ∈ d1.peaks) (hr2 : row2 ∈ d2.peaks) (e : Fl) (hkl G1 G2 : V3)
    (he1 : Has d1.columns row1 "grain_index" e) (he2 : Has d2.columns row2 "grain_index" e)
    (hk1 : HasV d1.columns row1 "h" "k" "l" hkl) (hk2 : HasV d2.columns row2 "h" "k" "l" hkl)
    (hG1 : HasV d1.columns row1 "G0_x" "G0_y" "G0_z" G1) (hG2 : HasV d2.columns row2 "G0_x" "G0_y" "G0_z" G2) :
    G2 = Spec.rotate m.axis (t * m.angle) G1 := by
  have main : ∀ (q : Polycrystal), q.phases = p.phases → ∀ (b : Beam) (mm : Motion) (lo hi : ℝ) (det : Option Detector)
      (d : PeaksDict) (q' : Polycrystal), q.diffract x b mm lo hi det = .ok (d, q') → ∀ row ∈ d.peaks, ∀ G,
      Has d.columns row "grain_index" e → HasV d.columns row "h" "k" "l" hkl → HasV d.columns row "G0_x" "G0_y" "G0_z" G →
      ∃ n : ℕ, e = fin n ∧ G = (q.orientationLab.getD n 0).mulVec ((q.eB.getD n 0).mulVec hkl) := by
    intro q hq b mm lo hi det d q' hd row hrow G he hk hG
    obtain ⟨lo', hi', -, rfl, hcore⟩ := Polycrystal.diffract_ok hd
    have hcons : ∀ ph ∈ (q.setupPhases x b.wavelength lo' hi').crystal.phases,
        ph.Consistent := by
      intro ph hmem
      obtain ⟨ph0, h0, rfl⟩ := List.mem_map.mp hmem
      exact Phase.setup_consistent hx (hph _ (hq ▸ h0)) _ _ _
    obtain ⟨n, i, pl, ph, hkl', wt, c1, c2, c3, c4, c5, c6, c7, c8, c9⟩ := C42_peaks_use_own_phase _ b mm d hcons hcore row hrow
    rw [diffract_columns hcore] at *
    have e1 : fin (n : ℝ) = e := by
      have := (has_iff 0 rfl).mp c1; rw [(has_iff 0 rfl).mp he] at this; exact (Option.some.inj this).symm
    have ev : ∀ (nm : String) (k : ℕ) (_ : peakColumns[k]? = some nm) (a b : ℝ), Has peakColumns row nm (fin a) →
        Has peakColumns row nm (fin b) → a = b := by
      intro nm k hk a b ha hb
      have := (has_iff k hk).mp ha; rw [(has_iff k hk).mp hb] at this
      have := Option.some.inj this; injection this with this; exact this.symm
    have ekl : (⟨hkl'.h, hkl'.k, hkl'.l⟩ : V3) = hkl := by
      ext
      · exact ev "h" 2 rfl _ _ c7.1 hk.1
      · exact ev "k" 3 rfl _ _ c7.2.1 hk.2.1
      · exact ev "l" 4 rfl _ _ c7.2.2 hk.2.2
    have eG : G = ((q.setupPhases x b.wavelength lo' hi').crystal.orientation.getD n 0).mulVec
        (((q.setupPhases x b.wavelength lo' hi').crystal.eB.getD n 0).mulVec
          ⟨hkl'.h, hkl'.k, hkl'.l⟩) := by
      ext
      · exact ev "G0_x" 7 rfl _ _ hG.1 c9.1
      · exact ev "G0_y" 8 rfl _ _ hG.2.1 c9.2.1
      · exact ev "G0_z" 9 rfl _ _ hG.2.2 c9.2.2
    refine ⟨n, e1.symm, ?_⟩
    rw [eG, ekl]; rfl
  obtain ⟨n1, en1, g1⟩ := main p rfl b1 m1 lo1 hi1 det1 d1 p1 h1 row1 hr1 G1 he1 hk1 hG1
  obtain ⟨n2, en2, g2⟩ := main (p.transform m t) rfl b2 m2 lo2 hi2 det2 d2 p2 h2 row2 hr2 G2 he2 hk2 hG2
  have hn : n1 = n2 := by
    rw [en1] at en2; injection en2 with h; exact_mod_cast h
  subst hn
  rw [g2, g1, ← rotMat_eq_spec (norm_eq_one.mp hm), mul_comm t]
  have ho : (p.transform m t).orientationLab = p.orientationLab.map fun U => rotMat m.axis (m.angle * t) * U := rfl
  have hB : (p.transform m t).eB = p.eB := rfl
  rw [ho, hB]
  by_cases hlt : n1 < p.orientationLab.length
  · rw [List.getD_eq_getElem _ _ (by simpa using hlt), List.getD_eq_getElem _ _ hlt, List.getElem_map, mulVec_mul]
  · rw [List.getD_eq_default (l := List.map _ _) _ (by simpa using hlt), List.getD_eq_default (l := p.orientationLab) _ (by simpa using hlt)]
    have hz : ∀ v, (0 : M3).mulVec v = 0 := by intro v; ext <;> simp [mulVec, V3.dot]
    rw [hz, mulVec_zero]

/-! ### C63 -/

/-- C63: whatever set-ups a phase went through before, after a set-up its Miller indices are those generated for its own unit
cell and space group between the given limits, and it has one structure factor per Miller index if it has a structure file
and none otherwise. -/
theorem C63_phase_setup_is_last_setup (x : Xfab) (hx : ∀ h cell sg cif, (x.sfBatch h cell sg cif).length = h.length)
    (cell : List ℝ) (sg : String) (cif : Option String) (l : List (ℝ × ℝ × ℝ)) (wl lo hi : ℝ) :
    let ph := ((Phase.new cell sg cif).setups x l).setup x wl lo hi
    ph.unitCell = cell ∧ ph.sgname = sg ∧ ph.cif = cif ∧
    ph.miller = x.genhkl cell (Real.sin lo / wl) (Real.sin hi / wl) sg ∧
    (cif = none → ph.structureFactors = none) ∧
    (∀ c, cif = some c → ph.structureFactors = some (x.sfBatch ph.miller cell sg c) ∧
      (x.sfBatch ph.miller cell sg c).length = ph.miller.length) := by
  dsimp only
  have hfresh : (Phase.new cell sg cif).Fresh := fun _ => rfl
  have hinv : ∀ l, ((Phase.new cell sg cif).setups x l).Fresh ∧ ((Phase.new cell sg cif).setups x l).unitCell = cell ∧
      ((Phase.new cell sg cif).setups x l).sgname = sg ∧ ((Phase.new cell sg cif).setups x l).cif = cif := by
    intro l
    induction l using List.reverseRecOn with
    | nil => exact ⟨hfresh, rfl, rfl, rfl⟩
    | append_singleton l a ih =>
      have : (Phase.new cell sg cif).setups x (l ++ [a]) = ((Phase.new cell sg cif).setups x l).setup x a.1 a.2.1 a.2.2 := by
        simp [Phase.setups, List.foldl_append]
      rw [this]
      obtain ⟨s1, s2, s3⟩ := Phase.setup_static x ((Phase.new cell sg cif).setups x l) a.1 a.2.1 a.2.2
      exact ⟨Phase.setup_fresh ih.1 _ _ _, by rw [s1, ih.2.1], by rw [s2, ih.2.2.1], by rw [s3, ih.2.2.2]⟩
  obtain ⟨i1, i2, i3, i4⟩ := hinv l
  have e : ((Phase.new cell sg cif).setups x l).setup x wl lo hi = (Phase.new cell sg cif).setup x wl lo hi :=
    Phase.setup_eq i1 hfresh i2 i3 i4 _ _ _
  rw [e]
  unfold Phase.setup Phase.new
  cases cif with
  | none => simp
  | some c => simp [hx]

end XRD
