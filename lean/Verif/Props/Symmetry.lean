import Verif.Lemmas.PermRel

/-! Property C98: symmetry-equivalent orientations describe the same crystal. -/

namespace XRD.Spec
open XRD V3 M3

/-- The rotation `S` maps the (unstrained) reciprocal lattice of the phase to itself, taking the plane `h` to the plane `P h`, and the
reflections the phase sets up for a wavelength and Bragg limits are the same, with the same intensities, after `P`. -/
structure CrystalSymmetry (x : Xfab) (ph : Phase) (S : M3) (P : HKL → HKL) : Prop where
  turn : IsRot S
  lattice : ∀ h : HKL, S.mulVec ((x.formB ph.unitCell).mulVec h.toV) = (x.formB ph.unitCell).mulVec (P h).toV
  planes : ∀ wavelength lo hi : ℝ, ((reflections (ph.setup x wavelength lo hi)).map fun r => (P r.1, r.2)).Perm
    (reflections (ph.setup x wavelength lo hi))

/-- the strain argument holds multiples of the unit tensor only (in particular no strain) -/
def Hydrostatic : MatArg → Prop
  | .one e => ∃ c : ℝ, e = c • (1 : M3)
  | .many es => ∀ e ∈ es, ∃ c : ℝ, e = c • (1 : M3)
  | .other => True

/-- `row'` is `row` with plane `P e h` called `h`, `e` the element of the peak; the running number is free -/
def SameButMiller (cols : List String) (P : ℕ → HKL → HKL) (row row' : List Fl) : Prop :=
  (∃ (e : ℕ) (h : HKL), Has cols row "grain_index" (.fin (e : ℝ)) ∧ HasV cols row' "h" "k" "l" h.toV ∧ HasV cols row "h" "k" "l" (P e h).toV) ∧
  ∀ name, name ≠ "h" → name ≠ "k" → name ≠ "l" → name ≠ "peak_index" → ∀ v, Has cols row' name v ↔ Has cols row name v
end XRD.Spec

namespace XRD
open V3 M3 Fl Spec
open scoped Classical

/-- a hydrostatic strain scales the lattice -/
theorem bOfStrain_hydro {c : ℝ} {B0 B : M3} (h : bOfStrain (c • (1 : M3)) B0 = .ok B) : ∃ k : ℝ, ∀ v, B.mulVec v = k • B0.mulVec v := by
  have hC : strainC (c • (1 : M3)) = ⟨⟨2 * c + 1, 0, 0⟩, ⟨0, 2 * c + 1, 0⟩, ⟨0, 0, 2 * c + 1⟩⟩ := by
    ext <;> simp [strainC]
  by_cases hp : 0 < 2 * c + 1
  · set s := Real.sqrt (2 * c + 1) with hs
    have hs0 : 0 < s := Real.sqrt_pos.mpr hp
    have hss : s * s = 2 * c + 1 := Real.mul_self_sqrt hp.le
    have hL : cholesky (strainC (c • (1 : M3))) = .ok ⟨⟨s, 0, 0⟩, ⟨0, s, 0⟩, ⟨0, 0, s⟩⟩ := by
      rw [hC]
      apply cholesky_unique <;> first | rfl | exact hs0 | skip
      ext <;> simp [vecMul, tr, symL, hss]
    unfold bOfStrain at h
    rw [hL] at h
    obtain rfl := Except.ok.inj h
    have hinv : (⟨⟨s, 0, 0⟩, ⟨0, s, 0⟩, ⟨0, 0, s⟩⟩ : M3).tr.inv = ⟨⟨1/s, 0, 0⟩, ⟨0, 1/s, 0⟩, ⟨0, 0, 1/s⟩⟩ := by
      apply M3.inv_unique
      · simp [tr, M3.det, V3.dot, V3.cross]; exact hs0.ne'
      · ext <;> simp [vecMul, tr] <;> field_simp
    refine ⟨1 / s, fun v => ?_⟩
    rw [hinv, mulVec_mul]
    ext <;> simp [mulVec, V3.dot]
  · exfalso
    unfold bOfStrain cholesky at h
    rw [hC] at h
    simp only at h
    rw [if_neg hp] at h
    cases h

/-- the lattice turned -/
theorem sym_getG {U S B0 : M3} {k : ℝ} {B : M3} (hB : ∀ v, B.mulVec v = k • B0.mulVec v) {h h' : V3} (hS : S.mulVec (B0.mulVec h) = B0.mulVec h') :
    getG (U * S) B h = getG U B h' := by
  unfold getG
  rw [mulVec_mul, mulVec_mul, mulVec_mul, hB, hB, mulVec_smul, hS]

/-- relation of ten-column rows -/
def Renamed10 (P : ℕ → HKL → HKL) (r r' : List ℝ) : Prop :=
  ∃ (e i : ℕ) (h : HKL) (w t : ℝ) (G : V3), r = [(e : ℝ), (i : ℝ), (P e h).toV.x, (P e h).toV.y, (P e h).toV.z, w, t, G.x, G.y, G.z] ∧
    r' = [(e : ℝ), (i : ℝ), h.toV.x, h.toV.y, h.toV.z, w, t, G.x, G.y, G.z]

/-- two crystals that differ by symmetry operations of the lattices of their elements -/
structure SymCrystal (P : ℕ → HKL → HKL) (c c' : Crystal) : Prop where
  kind : c'.mapKind = c.mapKind
  map : c'.phaseMap = c.phaseMap
  phases : c'.phases = c.phases
  sphere : c'.sphereCentroids = c.sphereCentroids
  volumes : c'.volumes = c.volumes
  planes : ∀ i ph, c.phases[i]? = some ph → ∀ e ∈ grainIndices c.phaseMap i,
    ((reflections ph).map fun r => (P e r.1, r.2)).Perm (reflections ph)
  G : ∀ i ph, c.phases[i]? = some ph → ∀ e ∈ grainIndices c.phaseMap i, ∀ h : HKL,
    getG (c'.orientation.getD e 0) (c'.eB.getD e 0) h.toV = getG (c.orientation.getD e 0) (c.eB.getD e 0) (P e h).toV

variable {P : ℕ → HKL → HKL} {c c' : Crystal}

theorem sym_elemRows (hc : SymCrystal P c c') (pick : Fl × Fl → Fl) (b : Beam) (m : Motion) {i : ℕ} {ph : Phase} (hph : c.phases[i]? = some ph) {e : ℕ}
    (he : e ∈ grainIndices c.phaseMap i) : PermRel (Renamed10 P) (elemRows pick c b m i ph e) (elemRows pick c' b m i ph e) := by
  rw [elemRows_planes, elemRows_planes]
  have hperm : (((reflections ph).filter fun r => decide (r.2 > 1 / 10 ^ 6)).map fun r => (P e r.1, r.2)).Perm
      ((reflections ph).filter fun r => decide (r.2 > 1 / 10 ^ 6)) := by
    have := (hc.planes i ph hph e he).filter fun r => decide (r.2 > 1 / 10 ^ 6)
    rwa [List.filter_map] at this
  generalize ((reflections ph).filter fun r => decide (r.2 > 1 / 10 ^ 6)) = L at hperm
  refine PermRel.of_perm (hperm.filterMap _).symm ?_
  rw [List.filterMap_map]
  clear hperm
  induction L with
  | nil => exact List.Forall₂.nil
  | cons r L ih =>
    rw [List.filterMap_cons, List.filterMap_cons]
    have hG := hc.G i ph hph e he r.1
    simp only [Function.comp_apply, planeRow]
    rw [hG]
    cases keepTime (laueTime (pick (laueRoots (rho0Factor b.waveVector m.axis) (rho1Factor b.waveVector m.axis)
      (rho2Factor b.waveVector m.axis) (getG (c.orientation.getD e 0) (c.eB.getD e 0) (P e r.1).toV))) m.angle) with
    | none => exact ih
    | some t => exact List.Forall₂.cons ⟨e, i, r.1, r.2, t, _, rfl, rfl⟩ ih

theorem sym_rows (hc : SymCrystal P c c') (b : Beam) (m : Motion) : PermRel (Renamed10 P) (allPhaseRows c b m) (allPhaseRows c' b m) := by
  unfold allPhaseRows
  rw [hc.phases]
  apply PermRel.flatMap
  intro i _
  cases hp : c.phases[i]? with
  | none => exact ⟨[], List.Forall₂.nil, List.Perm.refl _⟩
  | some ph =>
    dsimp only
    rw [phaseRows_elems, phaseRows_elems, hc.map]
    exact (PermRel.flatMap fun e he => sym_elemRows hc _ b m hp he).append (PermRel.flatMap fun e he => sym_elemRows hc _ b m hp he)

/-- relation of the 24-column rows -/
def Renamed24 (P : ℕ → HKL → HKL) (r r' : List Fl) : Prop :=
  ∃ (e : ℕ) (h : HKL) (rest : List Fl) (i : Fl), rest.length = 19 ∧ r = [fin (e : ℝ), i, fin (P e h).toV.x, fin (P e h).toV.y, fin (P e h).toV.z] ++ rest ∧
    r' = [fin (e : ℝ), i, fin h.toV.x, fin h.toV.y, fin h.toV.z] ++ rest

theorem sym_extend (hc : SymCrystal P c c') (b : Beam) (m : Motion) {r r' : List ℝ} (h : Renamed10 P r r') :
    Renamed24 P (extendRow c b m r) (extendRow c' b m r') := by
  obtain ⟨e, i, h, w, t, G, rfl, rfl⟩ := h
  refine ⟨e, h, (extendRow c b m [(e : ℝ), (i : ℝ), (P e h).toV.x, (P e h).toV.y, (P e h).toV.z, w, t, G.x, G.y, G.z]).drop 5, fin i, ?_, ?_, ?_⟩
  · simp [extendRow]
  · simp [extendRow]
  · simp [extendRow, colD, hc.sphere, hc.volumes]

theorem sym_illuminated (b : Beam) {r r' : List Fl} (h : Renamed24 P r r') : illuminated b r = illuminated b r' := by
  obtain ⟨e, h, rest, i, -, rfl, rfl⟩ := h
  rfl

theorem sym_kept (hc : SymCrystal P c c') (b : Beam) (m : Motion) : PermRel (Renamed24 P) (keptRows c b m) (keptRows c' b m) :=
  ((sym_rows hc b m).map fun _ _ h => sym_extend hc b m h).filter fun _ _ h => sym_illuminated b h

theorem sym_row {r r' : List Fl} (h : Renamed24 P r r') (v v' : Fl) : SameButMiller peakColumns P (r ++ [v]) (r' ++ [v']) := by
  obtain ⟨e, h, rest, i, hl, rfl, rfl⟩ := h
  refine ⟨⟨e, h, ⟨0, rfl, rfl⟩, ⟨⟨2, rfl, rfl⟩, ⟨3, rfl, rfl⟩, ⟨4, rfl, rfl⟩⟩, ⟨⟨2, rfl, rfl⟩, ⟨3, rfl, rfl⟩, ⟨4, rfl, rfl⟩⟩⟩, ?_⟩
  intro name n1 n2 n3 n4 w
  constructor <;>
  · rintro ⟨j, hj, hv⟩
    refine ⟨j, hj, ?_⟩
    rw [← hv]
    have hj' : j < 25 := (List.getElem?_eq_some_iff.mp hj).1
    have h2 : j ≠ 2 := by rintro rfl; exact n1 (Option.some.inj hj).symm
    have h3 : j ≠ 3 := by rintro rfl; exact n2 (Option.some.inj hj).symm
    have h4 : j ≠ 4 := by rintro rfl; exact n3 (Option.some.inj hj).symm
    have h24 : j ≠ 24 := by rintro rfl; exact n4 (Option.some.inj hj).symm
    rcases Nat.lt_or_ge j 5 with hlt | hge
    · interval_cases j <;> first | rfl | omega
    · obtain ⟨q, rfl⟩ := Nat.exists_eq_add_of_le' hge
      have hq : q < rest.length := by omega
      simp only [List.append_assoc, List.cons_append, List.nil_append, List.getElem?_cons_succ]
      rw [List.getElem?_append_left hq, List.getElem?_append_left hq]

/-- the polycrystal with every element's orientation composed with a rotation of its own -/
def reoriented (p : Polycrystal) (S : ℕ → M3) : Polycrystal :=
  { p with orientationLab := p.orientationLab.mapIdx fun e U => U * S e, orientationSample := p.orientationSample.mapIdx fun e U => U * S e }

theorem reoriented_transforms (S : ℕ → M3) (hist : List (Motion × ℝ)) :
    ∀ p : Polycrystal, (reoriented p S).transforms hist = reoriented (p.transforms hist) S := by
  induction hist with
  | nil => intro p; rfl
  | cons a hist ih =>
    intro p
    have : (reoriented p S).transform a.1 a.2 = reoriented (p.transform a.1 a.2) S := by
      unfold reoriented Polycrystal.transform
      simp only [Polycrystal.mk.injEq, true_and, and_true]
      apply List.ext_getElem?
      intro e
      simp only [List.getElem?_map, List.getElem?_mapIdx, Option.map_map]
      congr 1
      funext U
      simp [mul_assoc']
    show ((reoriented p S).transform a.1 a.2).transforms hist = reoriented ((p.transform a.1 a.2).transforms hist) S
    rw [this, ih]

theorem hydro_conj {U : M3} (hU : IsRot U) (c : ℝ) : U.tr * (c • (1 : M3) * U) = c • (1 : M3) := by
  have : c • (1 : M3) * U = c • U := by ext <;> simp [vecMul]
  rw [this]
  have h2 : U.tr * (c • U) = c • (U.tr * U) := by ext <;> simp [vecMul, tr] <;> ring
  rw [h2, hU.1]

theorem rot_comp {U S : M3} (hU : IsRot U) (hS : IsRot S) : IsRot (U * S) := by
  refine ⟨?_, ?_, ?_⟩
  · rw [tr_mul, mul_assoc', ← mul_assoc' U.tr, hU.1, one_mul', hS.1]
  · rw [tr_mul, mul_assoc', ← mul_assoc' S, hS.2.1, one_mul', hU.2.1]
  · rw [det_mul, hU.2.2, hS.2.2]; norm_num

/-- the strains of the elements -/
theorem hydro_mat {s : MatArg} (h : Hydrostatic s) {n : ℕ} {L : List M3} (hL : instantiateMat s n = .ok L) (e : ℕ) : ∃ c : ℝ, L.getD e 0 = c • (1 : M3) := by
  have h0 : (0 : M3) = (0 : ℝ) • (1 : M3) := by ext <;> simp
  have key : ∀ L : List M3, (∀ m ∈ L, ∃ c : ℝ, m = c • (1 : M3)) → ∃ c : ℝ, L.getD e 0 = c • (1 : M3) := by
    intro L hall
    rw [List.getD_eq_getElem?_getD]
    cases hg : L[e]? with
    | none => exact ⟨0, h0⟩
    | some m => exact hall m (List.mem_of_getElem? hg)
  cases s with
  | one m =>
    obtain rfl := Except.ok.inj hL
    exact key _ fun a ha => by rw [(List.mem_replicate.mp ha).2]; exact h
  | many ms =>
    unfold instantiateMat at hL
    dsimp only at hL
    split_ifs at hL
    obtain rfl := Except.ok.inj hL
    exact key _ h
  | other => cases hL

section
variable {x : Xfab} {S : ℕ → M3} {phs : List Phase} {map : List ℝ}

theorem sym_eB {n : ℕ} {Us St : List M3} (hU : ∀ U ∈ Us, IsRot U) (hn : Us.length = n) (hSt : ∀ e, ∃ c : ℝ, St.getD e 0 = c • (1 : M3))
    (hS : ∀ (i : ℕ) ph, phs[i]? = some ph → ∀ e, map[e]? = some (i : ℝ) → IsRot (S e)) :
    instantiateEB x n (Us.mapIdx fun e U => U * S e) St phs map = instantiateEB x n Us St phs map := by
  unfold instantiateEB
  split_ifs with hc
  · rfl
  · push Not at hc
    have hstep : ∀ i ph, phs[i]? = some ph → ∀ acc, eBStep x (Us.mapIdx fun e U => U * S e) St map acc i ph = eBStep x Us St map acc i ph := by
      intro i ph hph acc
      unfold eBStep labStrainToB
      dsimp only
      rw [List.map_map, List.map_map]
      have : (grainIndices map i).map ((fun p : M3 × M3 => p.2.tr * (p.1 * p.2)) ∘ fun e => (St.getD e 0, (Us.mapIdx fun e U => U * S e).getD e 0)) =
          (grainIndices map i).map ((fun p : M3 × M3 => p.2.tr * (p.1 * p.2)) ∘ fun e => (St.getD e 0, Us.getD e 0)) := by
        apply List.map_congr_left
        intro e he
        have hi := (List.getElem?_eq_some_iff.mp hph).1
        have hlt : e < Us.length := by rw [hn]; exact hc i hi e he
        have hrot := hS i ph hph e (mem_grainIndices.mp he)
        obtain ⟨c, hc'⟩ := hSt e
        have e1 : (Us.mapIdx fun e U => U * S e).getD e 0 = Us[e] * S e := by
          rw [List.getD_eq_getElem?_getD, List.getElem?_mapIdx, List.getElem?_eq_getElem hlt]; rfl
        have e2 : Us.getD e 0 = Us[e] := by
          rw [List.getD_eq_getElem?_getD, List.getElem?_eq_getElem hlt]; rfl
        simp only [Function.comp_apply]
        rw [e1, e2, hc', hydro_conj (rot_comp (hU _ (List.getElem_mem hlt)) hrot), hydro_conj (hU _ (List.getElem_mem hlt))]
      rw [this]
    have hloop : ∀ (ps : List Phase) (acc : List M3) (i : ℕ), (∀ j ph, ps[j]? = some ph → phs[i + j]? = some ph) →
        eBLoop x (Us.mapIdx fun e U => U * S e) St map acc i ps = eBLoop x Us St map acc i ps := by
      intro ps
      induction ps with
      | nil => intro acc i _; rfl
      | cons p ps ih =>
        intro acc i hps
        unfold eBLoop
        rw [hstep i p (hps 0 p rfl)]
        cases eBStep x Us St map acc i p with
        | error e => rfl
        | ok acc' => exact ih acc' (i + 1) fun j ph hj => by have := hps (j + 1) ph hj; rwa [show i + 1 + j = i + (j + 1) by omega]
    exact hloop phs _ 0 fun j ph hj => by rwa [Nat.zero_add]

theorem sym_new {mesh : TetraMesh} {Us : List M3} {s : MatArg} (hU : ∀ U ∈ Us, IsRot U) (hs : Hydrostatic s)
    (hS : ∀ (i : ℕ) ph, phs[i]? = some ph → ∀ e, map[e]? = some (i : ℝ) → IsRot (S e)) :
    Polycrystal.new x mesh (.many (Us.mapIdx fun e U => U * S e)) s (.many phs) (some map) =
      (Polycrystal.new x mesh (.many Us) s (.many phs) (some map)).map fun p => reoriented p S := by
  unfold Polycrystal.new
  dsimp only [instantiateMat]
  rw [List.length_mapIdx]
  by_cases hl : Us.length = mesh.enod.length
  · rw [if_pos hl, if_pos hl]
    dsimp only
    cases hst : instantiateMat s mesh.enod.length with
    | error e => simp only [instantiateMat] at hst; simp only [hst]; rfl
    | ok St =>
      have hst' := hst
      simp only [instantiateMat] at hst'
      simp only [hst', instantiatePhase, PhasesArg.toList]
      rw [sym_eB hU hl (hydro_mat hs hst) hS]
      cases instantiateEB x mesh.enod.length Us St phs map with
      | error e => rfl
      | ok eB => rfl
  · rw [if_neg hl, if_neg hl]; rfl
end

/-- C98: compose the orientation of every element with a symmetry operation of the lattice of its phase (a rotation that maps the
reciprocal lattice to itself and under which the intensities of the reflections are the same).  If the strain of every element is
hydrostatic (or zero), the polycrystal can be built from the one description exactly if it can from the other, and after any history
of motions, for every beam, scan and Bragg limits, `diffract` succeeds for the one exactly if it does for the other and reports the
same peaks, up to the order, the running numbers and the names of the planes, which are exchanged by the symmetry.  Missing: strained
elements, for which it is false (`C98_sheared_fails`). -/
theorem C98_equivalent_orientations_partial (x : Xfab) (mesh : TetraMesh) (Us : List M3) (hU : ∀ U ∈ Us, IsRot U) (s : MatArg) (hs : Hydrostatic s)
    (phs : List Phase) (map : List ℝ) (S : ℕ → M3) (P : ℕ → HKL → HKL)
    (hS : ∀ (i : ℕ) ph, phs[i]? = some ph → ∀ e, map[e]? = some (i : ℝ) → CrystalSymmetry x ph (S e) (P e)) :
    ((∃ p, Polycrystal.new x mesh (.many Us) s (.many phs) (some map) = .ok p) ↔
      ∃ q, Polycrystal.new x mesh (.many (Us.mapIdx fun e U => U * S e)) s (.many phs) (some map) = .ok q) ∧
    ∀ p q, Polycrystal.new x mesh (.many Us) s (.many phs) (some map) = .ok p →
      Polycrystal.new x mesh (.many (Us.mapIdx fun e U => U * S e)) s (.many phs) (some map) = .ok q →
      ∀ (hist : List (Motion × ℝ)) (b : Beam) (m : Motion) (lo hi : ℝ) (det : Option Detector),
        ((∃ r, (p.transforms hist).diffract x b m lo hi det = .ok r) ↔ ∃ r, (q.transforms hist).diffract x b m lo hi det = .ok r) ∧
        ∀ d d' p1 q1, (p.transforms hist).diffract x b m lo hi det = .ok (d, p1) →
          (q.transforms hist).diffract x b m lo hi det = .ok (d', q1) →
          d'.columns = d.columns ∧ ∃ l, List.Forall₂ (SameButMiller d.columns P) d.peaks l ∧ l.Perm d'.peaks := by
  have hnew := sym_new (x := x) (mesh := mesh) (map := map) hU hs fun i ph hph e he => (hS i ph hph e he).turn
  refine ⟨?_, ?_⟩
  · rw [hnew]
    cases Polycrystal.new x mesh (.many Us) s (.many phs) (some map) with
    | error e => simp [Except.map]
    | ok p => simp [Except.map]
  intro p q hp hq hist b m lo hi det
  rw [hnew, hp] at hq
  obtain rfl := Except.ok.inj hq
  dsimp only
  rw [reoriented_transforms]
  -- what construction and the motions leave
  obtain ⟨U0, St, kind, pm, eB, hU0, hSt, hk, heB, rfl⟩ := Polycrystal.new_ok hp
  have hk' := Except.ok.inj hk
  simp only [Prod.mk.injEq] at hk'
  obtain ⟨rfl, rfl⟩ := hk'
  have hUs : U0 = Us := by
    unfold instantiateMat at hU0
    dsimp only at hU0
    split_ifs at hU0
    exact (Except.ok.inj hU0).symm
  subst hUs
  have hstate : ∀ (hist : List (Motion × ℝ)) (p : Polycrystal), (∃ R : M3, (p.transforms hist).orientationLab = p.orientationLab.map fun U => R * U) ∧
      (p.transforms hist).phases = p.phases ∧ (p.transforms hist).phaseMap = p.phaseMap ∧ (p.transforms hist).mapKind = p.mapKind ∧
      (p.transforms hist).eB = p.eB := by
    intro hist
    induction hist with
    | nil => intro p; exact ⟨⟨1, by show p.orientationLab = _; simp [one_mul']⟩, rfl, rfl, rfl, rfl⟩
    | cons a hist ih =>
      intro p
      obtain ⟨⟨R, hR⟩, h2, h3, h4, h5⟩ := ih (p.transform a.1 a.2)
      refine ⟨⟨R * rotMat a.1.axis (a.1.angle * a.2), ?_⟩, h2, h3, h4, h5⟩
      show ((p.transform a.1 a.2).transforms hist).orientationLab = _
      rw [hR]
      unfold Polycrystal.transform
      dsimp only
      rw [List.map_map]
      apply List.map_congr_left
      intro U _
      simp [mul_assoc']
  obtain ⟨⟨R, g0⟩, g1, g2, g3, g4⟩ := hstate hist ⟨mesh, mesh, U0, U0, St, St, phs, .torch, map, eB, (elements mesh.coord mesh.enod).map tetVolume⟩
  dsimp only [PhasesArg.toList] at g0 g1 g2 g3 g4 ⊢
  generalize Polycrystal.transforms ⟨mesh, mesh, U0, U0, St, St, phs, .torch, map, eB, (elements mesh.coord mesh.enod).map tetVolume⟩ hist = Q
    at g0 g1 g2 g3 g4 ⊢
  have hlim : (reoriented Q S).limits b lo hi det = Q.limits b lo hi det := by cases det <;> rfl
  have hsym : ∀ lo hi, SymCrystal P (Q.setupPhases x b.wavelength lo hi).crystal ((reoriented Q S).setupPhases x b.wavelength lo hi).crystal := by
    intro lo hi
    have hphase : ∀ (i : ℕ) ph, (Q.setupPhases x b.wavelength lo hi).crystal.phases[i]? = some ph →
        ∃ ph0, phs[i]? = some ph0 ∧ ph = ph0.setup x b.wavelength lo hi := by
      intro i ph h
      change (Q.phases.map fun ph => ph.setup x b.wavelength lo hi)[i]? = some ph at h
      rw [g1, List.getElem?_map, Option.map_eq_some_iff] at h
      obtain ⟨ph0, h1, h2⟩ := h
      exact ⟨ph0, h1, h2.symm⟩
    refine ⟨rfl, rfl, rfl, rfl, rfl, ?_, ?_⟩
    · intro i ph hph e he
      obtain ⟨ph0, h0, rfl⟩ := hphase i ph hph
      have hm : map[e]? = some (i : ℝ) := by rw [← g2]; exact mem_grainIndices.mp he
      exact (hS i ph0 h0 e hm).planes _ _ _
    · intro i ph hph e he h
      obtain ⟨ph0, h0, rfl⟩ := hphase i ph hph
      have hm : map[e]? = some (i : ℝ) := by rw [← g2]; exact mem_grainIndices.mp he
      have hlt : e < mesh.enod.length := by
        by_contra hge
        unfold instantiateEB at heB
        rw [if_pos ⟨i, (List.getElem?_eq_some_iff.mp h0).1, e, mem_grainIndices.mpr hm, not_lt.mp hge⟩] at heB
        cases heB
      obtain ⟨-, -, hval⟩ := eB_value heB
      obtain ⟨B, hB, hBe⟩ := hval i ph0 h0 e hlt hm
      have hUl : U0.length = mesh.enod.length := by
        unfold instantiateMat at hU0
        dsimp only at hU0
        split_ifs at hU0 with hh
        exact hh
      have hUe : U0.getD e 0 = U0[e] := by
        rw [List.getD_eq_getElem?_getD, List.getElem?_eq_getElem (hUl ▸ hlt)]; rfl
      obtain ⟨cc, hcc⟩ := hydro_mat hs hSt e
      rw [hcc, hUe, hydro_conj (hU _ (List.getElem_mem _))] at hB
      obtain ⟨k, hk⟩ := bOfStrain_hydro hB
      have e1 : (Q.setupPhases x b.wavelength lo hi).crystal.eB.getD e 0 = B := by
        show Q.eB.getD e 0 = B
        rw [g4, List.getD_eq_getElem?_getD, hBe]; rfl
      have e2 : ((reoriented Q S).setupPhases x b.wavelength lo hi).crystal.eB.getD e 0 = B := e1
      have e3 : (Q.setupPhases x b.wavelength lo hi).crystal.orientation.getD e 0 = R * U0[e] := by
        show Q.orientationLab.getD e 0 = _
        rw [g0, List.getD_eq_getElem?_getD, List.getElem?_map, List.getElem?_eq_getElem (hUl ▸ hlt)]; rfl
      have e4 : ((reoriented Q S).setupPhases x b.wavelength lo hi).crystal.orientation.getD e 0 = R * U0[e] * S e := by
        show (Q.orientationLab.mapIdx fun e U => U * S e).getD e 0 = _
        rw [g0, List.getD_eq_getElem?_getD, List.getElem?_mapIdx, List.getElem?_map, List.getElem?_eq_getElem (hUl ▸ hlt)]; rfl
      rw [e1, e2, e3, e4]
      exact sym_getG hk ((hS i ph0 h0 e hm).lattice h)
  refine ⟨?_, ?_⟩
  · unfold Polycrystal.diffract
    rw [hlim]
    cases Q.limits b lo hi det with
    | error e => simp
    | ok lh =>
      simp only
      rw [core_eq _ b m g3, core_eq _ b m g3, (sym_rows (hsym _ _) b m).length]
      split_ifs <;> simp
  · intro d d' p1 q1 hd hd'
    obtain ⟨lo1, hi1, hb, rfl, hc⟩ := Polycrystal.diffract_ok hd
    obtain ⟨lo2, hi2, hb', rfl, hc'⟩ := Polycrystal.diffract_ok hd'
    rw [hlim, hb] at hb'
    have hb' := Except.ok.inj hb'
    simp only [Prod.mk.injEq] at hb'
    obtain ⟨rfl, rfl⟩ := hb'
    have hcols := diffract_columns hc
    refine ⟨by rw [hcols, diffract_columns hc'], ?_⟩
    rw [hcols]
    rw [core_eq _ b m g3] at hc
    rw [core_eq _ b m g3] at hc'
    split_ifs at hc hc'
    obtain rfl := Except.ok.inj hc
    obtain rfl := Except.ok.inj hc'
    exact (sym_kept (hsym lo1 hi1) b m).numbered fun a b v w h => sym_row h v w

end XRD
