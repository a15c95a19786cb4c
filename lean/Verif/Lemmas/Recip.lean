import Verif.Lemmas.Scale2
import Verif.Lemmas.Strain

/-! Lemmas for C101: behaviour of the model when all wave and scattering vectors are multiplied by a positive factor `t`. -/

namespace XRD
open V3 M3 Fl
open scoped Classical

section scale
variable {t : ℝ} (ht : 0 < t)
include ht

/-! ### Laue equation and scattering factors -/

theorem re_rho0 (k a : V3) : rho0Factor (t • k) a = t • rho0Factor k a := by
  unfold rho0Factor; ext <;> simp [vecMul] <;> ring
theorem re_rho1 (k a : V3) : rho1Factor (t • k) a = t • rho1Factor k a := by
  unfold rho1Factor; ext <;> simp [vecMul] <;> ring
theorem re_rho2 (k a : V3) : rho2Factor (t • k) a = t • rho2Factor k a := by
  unfold rho2Factor; ext <;> simp [vecMul] <;> ring

theorem re_roots (f0 f1 f2 G : V3) : laueRoots (t • f0) (t • f1) (t • f2) (t • G) = laueRoots f0 f1 f2 G := by
  have h2 : (0 : ℝ) < t ^ 2 := by positivity
  have d : ∀ f : V3, (t • f).dot (t • G) = t ^ 2 * f.dot G := by intro f; simp [V3.dot]; ring
  have e2 : (t • f2).dot (t • G) + nsq (t • G) / 2 = t ^ 2 * (f2.dot G + nsq G / 2) := by rw [d, sc_nsq]; ring
  unfold laueRoots
  simp only [d f0, d f1, e2]
  rw [show t ^ 2 * (f2.dot G + nsq G / 2) - t ^ 2 * f0.dot G = t ^ 2 * (f2.dot G + nsq G / 2 - f0.dot G) by ring,
    show t ^ 2 * (f2.dot G + nsq G / 2) + t ^ 2 * f0.dot G = t ^ 2 * (f2.dot G + nsq G / 2 + f0.dot G) by ring]
  by_cases h : f2.dot G + nsq G / 2 - f0.dot G = 0
  · simp [h]
  · have h' : t ^ 2 * (f2.dot G + nsq G / 2 - f0.dot G) ≠ 0 := mul_ne_zero h2.ne' h
    simp only [if_neg h, if_neg h', fl_div_scale h2]

theorem re_lorentz (k K a : V3) : lorentz (t • k) (t • K) a = lorentz k K a := by
  by_cases hk : k = 0
  · subst hk
    unfold lorentz
    have z : t • (0 : V3) = 0 := sc_zero t
    have hd : ∀ K : V3, (fin ((0 : V3).dot K) / fin ((0 : V3).norm ^ 2) : Fl) = nan := by
      intro K
      have h1 : (0 : V3).dot K = 0 := by simp [V3.dot]
      have h2 : (0 : V3).norm ^ 2 = 0 := by rw [V3.norm_eq_zero.mpr rfl]; norm_num
      rw [h1, h2, div_fin, if_pos rfl]; simp [infSign]
    simp only [z, hd, mul_nan, sub_nan, nan_mul, add_nan, nan_add]
  · have hk' : t • k ≠ 0 := by
      intro h
      apply hk
      have := congrArg V3.norm h
      rw [sc_norm ht, V3.norm_eq_zero.mpr rfl] at this
      exact V3.norm_eq_zero.mp ((mul_eq_zero.mp this).resolve_left ht.ne')
    have hq : (t • k).dot (t • K) / (t • k).norm ^ 2 = k.dot K / k.norm ^ 2 := by
      rw [sc_norm ht, sc_dot, sc_dot', mul_pow, ← _root_.mul_assoc, ← pow_two, mul_div_mul_left _ _ (by positivity)]
    have ho : t • K - (k.dot K / k.norm ^ 2) • t • k = t • (K - (k.dot K / k.norm ^ 2) • k) := by rw [sc_comm, sc_sub]
    rw [lorentz_eq hk, lorentz_eq hk']
    dsimp only
    rw [hq, ho, sc_norm ht, sc_dot', fl_div_scale ht]

theorem re_polarization (K p : V3) : polarization (t • K) p = polarization K p := by
  unfold polarization
  simp only [sc_norm ht, V3.smul_x, V3.smul_y, V3.smul_z, fl_div_scale ht]

theorem re_twoTheta (k K : V3) : twoTheta (t • k) (t • K) = twoTheta k K := by
  unfold twoTheta
  simp only [sc_norm ht, V3.smul_x, V3.smul_y, V3.smul_z, fl_div_scale ht]

theorem re_scherrer (V tt wl : ℝ) : scherrer V tt (wl / t) = scherrer V tt wl / fin t := by
  unfold scherrer
  dsimp only
  generalize 2 * (3 * V / (4 * Real.pi)) ^ ((1 : ℝ) / 3) * 10000 * Real.cos (tt / 2) = z
  by_cases hz : z = 0
  · rw [hz, div_fin, div_fin, if_pos rfl, if_pos rfl]
    have e : infSign (9 / 10 * (wl / t)) = infSign (9 / 10 * wl) := by
      rw [← infSign_scale ht (9 / 10 * (wl / t))]
      congr 1
      field_simp
    rw [e]
    unfold infSign
    split_ifs
    · show pinf = if t < 0 then ninf else pinf
      rw [if_neg (by linarith)]
    · show ninf = if t < 0 then pinf else ninf
      rw [if_neg (by linarith)]
    · rfl
  · rw [div_fin_ne hz, div_fin_ne hz, div_fin_ne ht.ne']
    congr 1
    field_simp

/-! ### detector -/

theorem re_intersect (D : Detector) (ray src : V3) : D.intersect (t • ray) src = D.intersect ray src := by
  have ha : ∀ (c r x y : ℝ), Detector.alongRay x (t * y) (fin c / fin (t * r)) = Detector.alongRay x y (fin c / fin r) := by
    intro c r x y
    unfold Detector.alongRay
    by_cases hr : r = 0
    · rw [hr, MulZeroClass.mul_zero]
      split_ifs
      · rfl
      · congr 1
        rw [div_fin, if_pos rfl]
        have w : infSign c = pinf ∨ infSign c = ninf ∨ infSign c = nan := by
          unfold infSign; split_ifs <;> simp
        rcases w with w | w | w <;> rw [w]
        · show infSign (t * y) = infSign y; rw [infSign_scale ht]
        · show infSign (-(t * y)) = infSign (-y); rw [show -(t * y) = t * -y by ring, infSign_scale ht]
        · simp
    · have hr' : t * r ≠ 0 := mul_ne_zero ht.ne' hr
      rw [div_fin_ne hr, div_fin_ne hr']
      have h1 : c / (t * r) < 0 ↔ c / r < 0 := by
        rw [div_mul_eq_div_div_swap]
        constructor
        · intro h
          by_contra h'
          exact absurd h (not_lt.mpr (div_nonneg (not_lt.mp h') ht.le))
        · exact fun h => div_neg_of_neg_of_pos h ht
      simp only [lt_fin, h1]
      split_ifs
      · rfl
      · simp only [mul_fin, add_fin]
        congr 2
        field_simp
  unfold Detector.intersect
  simp only [V3.smul_x, V3.smul_y, V3.smul_z, sc_dot, ha, sc_norm ht, fl_div_scale ht]

theorem re_wrappingCone (D : Detector) (k src : V3) : D.wrappingCone (t • k) src = D.wrappingCone k src := by
  have hu : (1 / (t • k).norm) • t • k = (1 / k.norm) • k := by
    rw [sc_norm ht]
    by_cases hn : k.norm = 0
    · rw [V3.norm_eq_zero.mp hn]; ext <;> simp
    · have := ht.ne'
      ext <;> simp <;> field_simp
  unfold Detector.wrappingCone Detector.cornerAngle
  simp only [hu]

theorem re_boundingBox (D : Detector) (vs : List V3) (k : V3) : D.boundingBox vs (t • k) = D.boundingBox vs k := by
  unfold Detector.boundingBox
  simp only [re_intersect ht]

theorem re_projectHull (D : Detector) (env : RenderEnv) (hull : Hull) (k : V3) (box : ℤ × ℤ × ℤ × ℤ) :
    D.projectHull env hull (t • k) box = D.projectHull env hull k box := by
  have hu : (1 / (t • k).norm) • t • k = (1 / k.norm) • k := by
    rw [sc_norm ht]
    by_cases hn : k.norm = 0
    · rw [V3.norm_eq_zero.mp hn]; ext <;> simp
    · have := ht.ne'
      ext <;> simp <;> field_simp
  unfold Detector.projectHull
  simp only [hu]

/-! ### lattice matrices -/
omit ht

theorem re_mulr (A B : M3) : A * (t • B) = t • (A * B) := by ext <;> simp [vecMul] <;> ring
theorem re_getG (U B : M3) (h : V3) : getG U (t • B) h = t • getG U B h := by
  unfold getG; rw [re_mulr]; ext <;> simp [mulVec, V3.dot] <;> ring

theorem re_labStrainToB (pairs : List (M3 × M3)) (B0 : M3) :
    labStrainToB pairs (t • B0) = (labStrainToB pairs B0).map fun bs => bs.map (t • ·) := by
  unfold labStrainToB epsilonToBBatch
  generalize pairs.map (fun p => p.2.tr * (p.1 * p.2)) = es
  split_ifs
  · rfl
  · rfl
  · clear * -
    induction es with
    | nil => rfl
    | cons e es ih =>
      unfold batch
      rw [ih]
      have e1 : bOfStrain e (t • B0) = (bOfStrain e B0).map (t • ·) := by
        unfold bOfStrain
        cases cholesky (strainC e) with
        | error _ => rfl
        | ok L => show Except.ok _ = Except.ok _; rw [re_mulr]
      rw [e1]
      cases bOfStrain e B0 with
      | error _ => rfl
      | ok B =>
        cases batch (fun e => bOfStrain e B0) es with
        | error _ => rfl
        | ok bs => rfl

theorem re_scatter (acc : List M3) (idx : List ℕ) (vals : List M3) :
    scatter (acc.map (t • ·)) idx (vals.map (t • ·)) = (scatter acc idx vals).map (t • ·) := by
  unfold scatter
  induction idx generalizing acc vals with
  | nil => rfl
  | cons i idx ih =>
    cases vals with
    | nil => rfl
    | cons v vals =>
      simp only [List.map_cons, List.zip_cons_cons, List.foldl_cons]
      rw [← List.map_set]
      exact ih _ _

theorem re_zero : t • (0 : M3) = 0 := by ext <;> simp

/-- phases of the same crystals, the second list in another unit of reciprocal length, for generators `x` -/
def RePhase (x : Xfab) (t : ℝ) (ph ph' : Phase) : Prop :=
  x.formB ph'.unitCell = t • x.formB ph.unitCell ∧
  ∀ wl lo hi, (ph'.setup x (wl / t) lo hi).miller = (ph.setup x wl lo hi).miller ∧
    (ph'.setup x (wl / t) lo hi).structureFactors = (ph.setup x wl lo hi).structureFactors

theorem re_eBLoop {x : Xfab} (U S : List M3) (pm : List ℝ) {l l' : List Phase} (h : List.Forall₂ (RePhase x t) l l') :
    ∀ (acc : List M3) (i : ℕ), eBLoop x U S pm (acc.map (t • ·)) i l' = (eBLoop x U S pm acc i l).map fun bs => bs.map (t • ·) := by
  induction h with
  | nil => intro acc i; rfl
  | cons hp _ ih =>
    intro acc i
    unfold eBLoop eBStep
    dsimp only
    rw [hp.1, re_labStrainToB]
    cases labStrainToB _ _ with
    | error _ => rfl
    | ok bs =>
      show eBLoop x U S pm (scatter (acc.map (t • ·)) _ (bs.map (t • ·))) _ _ = _
      rw [re_scatter, ih]

/-- the polycrystal in another unit of reciprocal length -/
structure Polycrystal.Re (x : Xfab) (t : ℝ) (p p' : Polycrystal) : Prop where
  phases : List.Forall₂ (RePhase x t) p.phases p'.phases
  eq : p' = { p with phases := p'.phases, eB := p.eB.map (t • ·) }

theorem re_poly_new {x : Xfab} (mesh : TetraMesh) (o s : MatArg) {ph ph' : PhasesArg} (h : List.Forall₂ (RePhase x t) ph.toList ph'.toList)
    (map : Option (List ℝ)) :
    (∀ e, Polycrystal.new x mesh o s ph' map = .error e ↔ Polycrystal.new x mesh o s ph map = .error e) ∧
    ∀ p, Polycrystal.new x mesh o s ph map = .ok p → ∃ p', Polycrystal.new x mesh o s ph' map = .ok p' ∧ p.Re x t p' := by
  have hl := h.length_eq
  have hEB : ∀ n U S pm, instantiateEB x n U S ph'.toList pm = (instantiateEB x n U S ph.toList pm).map fun bs => bs.map (t • ·) := by
    intro n U S pm
    unfold instantiateEB
    rw [← hl]
    split_ifs
    · rfl
    · rw [← re_eBLoop U S pm h]
      rw [List.map_replicate, re_zero]
  have hIP : ∀ n, instantiatePhase ph'.toList map n = instantiatePhase ph.toList map n := by
    intro n; unfold instantiatePhase; rw [hl]
  unfold Polycrystal.new
  dsimp only
  simp only [hIP, hEB]
  cases instantiateMat o mesh.enod.length with
  | error e => exact ⟨fun _ => Iff.rfl, fun p hp => by cases hp⟩
  | ok U =>
    cases instantiateMat s mesh.enod.length with
    | error e => exact ⟨fun _ => Iff.rfl, fun p hp => by cases hp⟩
    | ok S =>
      cases instantiatePhase ph.toList map mesh.enod.length with
      | error e => exact ⟨fun _ => Iff.rfl, fun p hp => by cases hp⟩
      | ok kp =>
        obtain ⟨kind, pm⟩ := kp
        dsimp only
        cases instantiateEB x mesh.enod.length U S ph.toList pm with
        | error e => exact ⟨fun _ => Iff.rfl, fun p hp => by cases hp⟩
        | ok eB =>
          refine ⟨fun e => by constructor <;> (intro hh; cases hh), fun p hp => ?_⟩
          obtain rfl := Except.ok.inj hp
          exact ⟨_, rfl, h, rfl⟩

theorem re_transform {x : Xfab} {p p' : Polycrystal} (h : p.Re x t p') (m : Motion) (τ : ℝ) : (p.transform m τ).Re x t (p'.transform m τ) := by
  refine ⟨h.phases, ?_⟩
  conv_lhs => rw [h.eq]
  rfl

/-! ### peak rows -/

/-- what happens to column `i` of a peak row -/
noncomputable def reAt (t : ℝ) (i : ℕ) (v : Fl) : Fl := if 7 ≤ i ∧ i ≤ 15 then fin t * v else if i = 23 then v / fin t else v
/-- a peak row in another unit of reciprocal length -/
noncomputable def reRow (t : ℝ) (row : List Fl) : List Fl := row.mapIdx (reAt t)

theorem reRow_get (t : ℝ) (row : List Fl) (i : ℕ) : (reRow t row)[i]? = row[i]?.map (reAt t i) := List.getElem?_mapIdx
theorem reRow_length (t : ℝ) (row : List Fl) : (reRow t row).length = row.length := List.length_mapIdx
theorem reRow_append (t : ℝ) (row l : List Fl) :
    reRow t (row ++ l) = reRow t row ++ l.mapIdx fun i => reAt t (i + row.length) := List.mapIdx_append

/-- a ten-column row in another unit of reciprocal length -/
noncomputable def reTen (t : ℝ) (r : List ℝ) : List ℝ := r.mapIdx fun i v => if 7 ≤ i then t * v else v

/-- The crystal in another unit of reciprocal length, with its planes set up. -/
structure Crystal.Re (t : ℝ) (c c' : Crystal) : Prop where
  kind : c'.mapKind = c.mapKind
  map : c'.phaseMap = c.phaseMap
  phases : List.Forall₂ (fun ph ph' : Phase => ph'.miller = ph.miller ∧ ph'.structureFactors = ph.structureFactors) c.phases c'.phases
  eB : c'.eB = c.eB.map (t • ·)
  orientation : c'.orientation = c.orientation
  volumes : c'.volumes = c.volumes
  spheres : c'.sphereCentroids = c.sphereCentroids

/-- The beam in another unit of reciprocal length. -/
structure Beam.Re (t : ℝ) (b b' : Beam) : Prop where
  wave : b'.waveVector = t • b.waveVector
  wavelength : b'.wavelength = b.wavelength / t
  pol : b'.polarization = b.polarization
  halfspaces : b'.halfspaces = b.halfspaces

theorem Beam.Re.contains {b b' : Beam} (h : b.Re t b') (p : V3) : b'.contains p ↔ b.contains p := by
  unfold Beam.contains; rw [h.halfspaces]

section rows
variable {c c' : Crystal} {b b' : Beam} {m : Motion}
include ht

theorem re_laueBranch (pick : Fl × Fl → Fl) (G0 : List (List V3)) (f0 f1 f2 : V3) (dω : ℝ) :
    laueBranch pick (G0.map fun l => l.map (t • ·)) (t • f0) (t • f1) (t • f2) dω
      = (laueBranch pick G0 f0 f1 f2 dω).map fun s => ⟨s.grain, s.plane, s.time, t • s.G⟩ := by
  have hg : ∀ g, (G0.map fun l => l.map (t • ·)).getD g [] = (G0.getD g []).map (t • ·) := by
    intro g
    rw [List.getD_eq_getElem?_getD, List.getD_eq_getElem?_getD, List.getElem?_map]
    cases G0[g]? <;> rfl
  unfold laueBranch
  rw [List.map_flatMap, List.length_map]
  congr 1
  funext g
  rw [hg, List.length_map, List.map_filterMap]
  apply List.filterMap_congr
  intro p _
  dsimp only
  rw [sc_getD, re_roots ht, Option.map_map]
  rfl

theorem re_phaseRows (hc : c.Re t c') (hb : b.Re t b') (i : ℕ) {ph ph' : Phase} (h1 : ph'.miller = ph.miller)
    (h2 : ph'.structureFactors = ph.structureFactors) : phaseRows c' b' m i ph' = (phaseRows c b m i ph).map (reTen t) := by
  have ha : activePlanes ph' = activePlanes ph := by unfold activePlanes; rw [h1, h2]
  have hB : ∀ e, c'.eB.getD e 0 = t • c.eB.getD e 0 := by
    intro e
    rw [hc.eB, List.getD_eq_getElem?_getD, List.getD_eq_getElem?_getD, List.getElem?_map]
    cases c.eB[e]? with
    | none => exact re_zero.symm
    | some _ => rfl
  unfold phaseRows
  dsimp only
  rw [ha, hc.map, hb.wave, re_rho0 ht, re_rho1 ht, re_rho2 ht, hc.orientation]
  have hG : (grainIndices c.phaseMap i).map (fun e => (activePlanes ph).1.map fun p => getG (c.orientation.getD e 0) (c'.eB.getD e 0) p.toV)
      = ((grainIndices c.phaseMap i).map fun e => (activePlanes ph).1.map fun p => getG (c.orientation.getD e 0) (c.eB.getD e 0) p.toV).map
        fun l => l.map (t • ·) := by
    rw [List.map_map]
    apply List.map_congr_left
    intro e _
    simp only [Function.comp, List.map_map, hB, re_getG]
    rfl
  rw [hG]
  unfold laueSolutions
  rw [re_laueBranch ht, re_laueBranch ht, ← List.map_append, List.map_map, List.map_map]
  apply List.map_congr_left
  intro s _
  simp [reTen, Function.comp]

theorem re_allPhaseRows (hc : c.Re t c') (hb : b.Re t b') : allPhaseRows c' b' m = (allPhaseRows c b m).map (reTen t) := by
  unfold allPhaseRows
  rw [← hc.phases.length_eq, List.map_flatMap]
  congr 1
  funext i
  have hi := hc.phases
  cases h1 : c.phases[i]? with
  | none =>
    have : c'.phases[i]? = none := by
      rw [List.getElem?_eq_none_iff] at h1 ⊢; rw [← hi.length_eq]; exact h1
    rw [this]; rfl
  | some ph =>
    obtain ⟨hlt, he⟩ := List.getElem?_eq_some_iff.mp h1
    have hlt' : i < c'.phases.length := by rw [← hi.length_eq]; exact hlt
    have := (List.forall₂_iff_get.mp hi).2 i hlt hlt'
    rw [List.getElem?_eq_getElem hlt']
    simp only [List.get_eq_getElem, he] at this
    exact re_phaseRows ht hc hb i this.1 this.2

theorem re_extendRow (hc : c.Re t c') (hb : b.Re t b') {r : List ℝ} (hl : r.length = 10) :
    extendRow c' b' m (reTen t r) = reRow t (extendRow c b m r) := by
  match r, hl with
  | [a0, a1, a2, a3, a4, a5, a6, a7, a8, a9], _ =>
    have hr : reTen t [a0, a1, a2, a3, a4, a5, a6, a7, a8, a9] = [a0, a1, a2, a3, a4, a5, a6, t * a7, t * a8, t * a9] := by
      simp [reTen]
    have hrot : ∀ τ, m.rotate1 ⟨t * a7, t * a8, t * a9⟩ τ = t • m.rotate1 ⟨a7, a8, a9⟩ τ := by
      intro τ
      unfold Motion.rotate1
      ext <;> simp [mulVec, V3.dot] <;> ring
    rw [hr]
    unfold extendRow
    simp only [colD, List.getD_cons_zero, List.getD_cons_succ]
    rw [hc.spheres, hc.volumes, hb.wave, hb.pol, hb.wavelength]
    simp only [hrot, sc_add, re_lorentz ht, re_polarization ht, re_twoTheta ht]
    simp only [reRow, reAt, List.map_cons, List.map_nil, List.cons_append, List.nil_append, List.mapIdx_cons, List.mapIdx_nil]
    norm_num
    refine ⟨(_root_.mul_add _ _ _).symm, (_root_.mul_add _ _ _).symm, (_root_.mul_add _ _ _).symm, ?_⟩
    generalize twoTheta _ _ = tt
    cases tt with
    | fin x => exact re_scherrer ht _ x _
    | pinf => rfl
    | ninf => rfl
    | nan => rfl

theorem re_illuminated (hb : b.Re t b') (row : List Fl) : illuminated b' (reRow t row) = illuminated b row := by
  have hs : sourceOf (reRow t row) = sourceOf row := by
    unfold sourceOf
    have e : ∀ (i : ℕ), i = 16 ∨ i = 17 ∨ i = 18 → ∀ o : Option Fl, o.map (reAt t i) = o := by
      rintro i (rfl | rfl | rfl) o <;> cases o <;> simp [reAt]
    rw [reRow_get, reRow_get, reRow_get, e 16 (by simp), e 17 (by simp), e 18 (by simp)]
  unfold illuminated
  rw [hs]
  cases sourceOf row with
  | none => rfl
  | some s => simp only [hb.contains s]

/-- the dictionary in another unit of reciprocal length -/
noncomputable def PeaksDict.re (d : PeaksDict) (t : ℝ) (b' : Beam) : PeaksDict :=
  { d with peaks := d.peaks.map (reRow t), incident := b'.waveVector, wavelength := b'.wavelength, beam := b' }

theorem re_diffractCore (hc : c.Re t c') (hb : b.Re t b') :
    diffractCore c' b' m = (diffractCore c b m).map fun d => d.re t b' := by
  have hcp : computePeaks c' b' m = (computePeaks c b m).map (List.map (reRow t)) := by
    have hne : c'.phases ≠ [] ↔ c.phases ≠ [] := by
      rw [← List.length_pos_iff, ← List.length_pos_iff, hc.phases.length_eq]
    unfold computePeaks
    rw [hc.kind]
    simp only [hne]
    rw [re_allPhaseRows ht hc hb, List.length_map]
    by_cases h1 : c.mapKind = ArrKind.numpy ∧ c.phases ≠ []
    · rw [if_pos h1, if_pos h1]; rfl
    · rw [if_neg h1, if_neg h1]
      split_ifs with h2
      · rfl
      · show Except.ok _ = Except.ok _
        rw [List.map_map, List.map_map]
        congr 1
        apply List.map_congr_left
        intro r hr
        exact re_extendRow ht hc hb (allPhaseRows_len hr)
  unfold diffractCore
  rw [hcp]
  cases hp : computePeaks c b m with
  | error e => rfl
  | ok rows =>
    obtain rfl := computePeaks_ok hp
    show Except.ok _ = Except.ok _
    congr 1
    unfold PeaksDict.re
    dsimp only
    have hrow : ∀ row ∈ (allPhaseRows c b m).map (extendRow c b m), row.length = 24 := by
      intro row hr
      obtain ⟨r, hr', rfl⟩ := List.mem_map.mp hr
      obtain ⟨-, -, -, s, -, -, -, -, hs, hl⟩ := extendRow_vecs (c := c) (b := b) (m := m) (allPhaseRows_len hr')
      exact hl
    generalize (allPhaseRows c b m).map (extendRow c b m) = rows at hrow
    have e1 : (rows.map (reRow t)).filter (illuminated b') = (rows.filter (illuminated b)).map (reRow t) := by
      rw [List.filter_map]
      congr 1
      apply List.filter_congr
      intro row hr
      exact re_illuminated ht hb row
    have hlen : ∀ row ∈ rows.filter (illuminated b), row.length = 24 := fun row hr => hrow row (List.mem_filter.mp hr).1
    have e2 : ((rows.filter (illuminated b)).map (reRow t)).mapIdx (fun i row => row ++ [fin (i : ℝ)])
        = ((rows.filter (illuminated b)).mapIdx fun i row => row ++ [fin (i : ℝ)]).map (reRow t) := by
      apply List.ext_getElem?
      intro j
      rw [List.getElem?_mapIdx, List.getElem?_map, List.getElem?_map, List.getElem?_mapIdx]
      cases hj : (rows.filter (illuminated b))[j]? with
      | none => rfl
      | some row =>
        simp only [Option.map_some]
        rw [reRow_append, hlen row (List.mem_of_getElem? hj)]
        simp [reAt]
    rw [e1, e2]

/-! ### detector rows -/
theorem re_vecAt16 (row : List Fl) : vecAt (reRow t row) 16 = vecAt row 16 := by
  unfold vecAt
  have e : ∀ (i : ℕ), i = 16 ∨ i = 16 + 1 ∨ i = 16 + 2 → ∀ o : Option Fl, o.map (reAt t i) = o := by
    rintro i (rfl | rfl | rfl) o <;> cases o <;> simp [reAt]
  rw [reRow_get, reRow_get, reRow_get, e 16 (by simp), e (16 + 1) (by simp), e (16 + 2) (by simp)]

theorem re_vecAt13 (row : List Fl) : vecAt (reRow t row) 13 = (vecAt row 13).map (t • ·) := by
  unfold vecAt
  rw [reRow_get, reRow_get, reRow_get]
  have key : ∀ v : Fl, (∀ r, v ≠ fin r) → ∀ r, fin t * v ≠ fin r := by
    intro v hv r
    cases v with
    | fin a => exact absurd rfl (hv a)
    | pinf => rw [fl_scale_pinf ht]; simp
    | ninf => rw [fl_scale_ninf ht]; simp
    | nan => simp
  cases row[13]? with
  | none => rfl
  | some x =>
    cases row[13 + 1]? with
    | none => simp
    | some y =>
      cases row[13 + 2]? with
      | none => simp
      | some z =>
        simp only [Option.map_some, reAt]
        norm_num
        cases x <;> cases y <;> cases z <;> simp [fl_scale_pinf ht, fl_scale_ninf ht] <;> rfl

theorem re_rowIntersect (D : Detector) (row : List Fl) : D.rowIntersect (reRow t row) = D.rowIntersect row := by
  unfold Detector.rowIntersect
  rw [re_vecAt16 ht, re_vecAt13 ht]
  cases vecAt row 13 with
  | none => rfl
  | some k =>
    cases vecAt row 16 with
    | none => rfl
    | some s => simp only [Option.map_some, re_intersect ht]

omit ht in
theorem reRow_getD (row : List Fl) {i : ℕ} (h : (i < 7 ∨ 15 < i) ∧ i ≠ 23) : (reRow t row).getD i nan = row.getD i nan := by
  rw [List.getD_eq_getElem?_getD, List.getD_eq_getElem?_getD, reRow_get]
  have h1 : ¬ (7 ≤ i ∧ i ≤ 15) := by omega
  cases row[i]? <;> simp [reAt, h1, h.2]

omit ht in
theorem reRow_append_tail {row : List Fl} (hl : 25 ≤ row.length) (l : List Fl) : reRow t (row ++ l) = reRow t row ++ l := by
  rw [reRow_append]
  congr 1
  apply List.ext_getElem?
  intro i
  rw [List.getElem?_mapIdx]
  have h1 : ¬ (7 ≤ i + row.length ∧ i + row.length ≤ 15) := by omega
  have h2 : i + row.length ≠ 23 := by omega
  cases l[i]? <;> simp [reAt, h1, h2]

theorem re_peaksIntersection (D : Detector) (d : PeaksDict) (b' : Beam) (n : ℤ) (hrow : ∀ row ∈ d.peaks, row.length = 25) :
    D.peaksIntersection (d.re t b') n = (D.peaksIntersection d n).re t b' := by
  have e1 : (d.peaks.map (reRow t)).map (fun row => row ++ D.rowIntersect row)
      = (d.peaks.map fun row => row ++ D.rowIntersect row).map (reRow t) := by
    rw [List.map_map, List.map_map]
    apply List.map_congr_left
    intro row hr
    simp only [Function.comp]
    rw [re_rowIntersect ht, reRow_append_tail (by rw [hrow row hr])]
  have hlen1 : ∀ row ∈ d.peaks.map (fun row => row ++ D.rowIntersect row), row.length = 28 := by
    intro row hr
    obtain ⟨r, hr', rfl⟩ := List.mem_map.mp hr
    rw [List.length_append, hrow r hr', rowInter_len]
  unfold Detector.peaksIntersection PeaksDict.re
  dsimp only
  rw [e1]
  generalize d.peaks.map (fun row => row ++ D.rowIntersect row) = rows at hlen1
  have e2 : (rows.map (reRow t)).filter (fun row => decide (D.contains (row.getD 25 nan) (row.getD 26 nan)))
      = (rows.filter fun row => decide (D.contains (row.getD 25 nan) (row.getD 26 nan))).map (reRow t) := by
    rw [List.filter_map]
    congr 1
    apply List.filter_congr
    intro row hr
    simp only [Function.comp]
    rw [reRow_getD row (by omega), reRow_getD row (by omega)]
  rw [e2]
  have hlen2 : ∀ row ∈ rows.filter (fun row => decide (D.contains (row.getD 25 nan) (row.getD 26 nan))), row.length = 28 :=
    fun row hr => hlen1 row (List.mem_filter.mp hr).1
  generalize rows.filter (fun row => decide (D.contains (row.getD 25 nan) (row.getD 26 nan))) = rows2 at hlen2
  have e3 : (rows2.map (reRow t)).map (fun row => row ++ [Detector.rowFrame n row])
      = (rows2.map fun row => row ++ [Detector.rowFrame n row]).map (reRow t) := by
    rw [List.map_map, List.map_map]
    apply List.map_congr_left
    intro row hr
    simp only [Function.comp]
    rw [reRow_append_tail (by rw [hlen2 row hr]; norm_num)]
    unfold Detector.rowFrame
    rw [reRow_getD row (by omega)]
  rw [e3]
  have hlen3 : ∀ row ∈ rows2.map (fun row => row ++ [Detector.rowFrame n row]), row.length = 29 := by
    intro row hr
    obtain ⟨r, hr', rfl⟩ := List.mem_map.mp hr
    rw [List.length_append, hlen2 r hr']; rfl
  generalize rows2.map (fun row => row ++ [Detector.rowFrame n row]) = rows3 at hlen3
  have e4 : (rows3.map (reRow t)).map (fun row => row ++ [D.rowIntensity row])
      = (rows3.map fun row => row ++ [D.rowIntensity row]).map (reRow t) := by
    rw [List.map_map, List.map_map]
    apply List.map_congr_left
    intro row hr
    simp only [Function.comp]
    rw [reRow_append_tail (by rw [hlen3 row hr]; norm_num)]
    unfold Detector.rowIntensity
    rw [reRow_getD row (by omega), reRow_getD row (by omega), reRow_getD row (by omega)]
  rw [e4, List.filter_map]
  congr 2
  apply List.filter_congr
  intro row hr
  simp only [Function.comp]
  rw [reRow_getD row (by omega)]

/-! ### images -/

omit ht in
theorem re_rcol (row : List Fl) {i : ℕ} (h : (i < 7 ∨ 15 < i) ∧ i ≠ 23) : rcol (reRow t row) i = rcol row i := by
  unfold rcol
  rw [reRow_get]
  have h1 : ¬ (7 ≤ i ∧ i ≤ 15) := by omega
  cases row[i]? <;> simp [reAt, h1, h.2]

theorem re_rcolK (row : List Fl) {i : ℕ} (h : 7 ≤ i ∧ i ≤ 15) : rcol (reRow t row) i = t * rcol row i := by
  unfold rcol
  rw [reRow_get]
  cases row[i]? with
  | none => simp
  | some v => cases v <;> simp [reAt, h, fl_scale_pinf ht, fl_scale_ninf ht]

omit ht in
theorem re_microDeposits (D : Detector) (row : List Fl) : D.microDeposits (reRow t row) = D.microDeposits row := by
  unfold Detector.microDeposits
  simp only [re_rcol row (show (25 < 7 ∨ 15 < 25) ∧ 25 ≠ 23 by omega), re_rcol row (show (26 < 7 ∨ 15 < 26) ∧ 26 ≠ 23 by omega),
    re_rcol row (show (28 < 7 ∨ 15 < 28) ∧ 28 ≠ 23 by omega), re_rcol row (show (29 < 7 ∨ 15 < 29) ∧ 29 ≠ 23 by omega),
    re_rcol row (show (21 < 7 ∨ 15 < 21) ∧ 21 ≠ 23 by omega)]

omit ht in
theorem re_renderMicro (D : Detector) (g : ℝ) (rows : List (List Fl)) (n : ℕ) :
    D.renderMicro g (rows.map (reRow t)) n = D.renderMicro g rows n := by
  rw [renderMicro_eq, renderMicro_eq, List.flatMap_map]
  simp only [re_microDeposits]

theorem re_macroPeak (D : Detector) (env : RenderEnv) {b b' : Beam} (hh : ∀ vs, env.hull b' vs = env.hull b vs) (mesh : TetraMesh) (m : Motion)
    (row : List Fl) (T : Option Frame) : D.macroPeak env b' mesh m (reRow t row) T = D.macroPeak env b mesh m row T := by
  unfold Detector.macroPeak
  have e : Detector.movedVertices mesh m (reRow t row) = Detector.movedVertices mesh m row := by
    unfold Detector.movedVertices
    rw [re_rcol row (by omega), re_rcol row (by omega)]
  have ek : (⟨rcol (reRow t row) 13, rcol (reRow t row) 14, rcol (reRow t row) 15⟩ : V3) = t • ⟨rcol row 13, rcol row 14, rcol row 15⟩ := by
    rw [re_rcolK ht row (by omega), re_rcolK ht row (by omega), re_rcolK ht row (by omega)]; rfl
  simp only [e, ek, hh, re_boundingBox ht, re_projectHull ht, re_rcol row (show (29 < 7 ∨ 15 < 29) ∧ 29 ≠ 23 by omega)]

theorem re_renderMacro (D : Detector) (env : RenderEnv) {b b' : Beam} (hh : ∀ vs, env.hull b' vs = env.hull b vs) (mesh : TetraMesh) (m : Motion)
    (rows : List (List Fl)) (n : ℕ) : D.renderMacro env b' mesh m (rows.map (reRow t)) n = D.renderMacro env b mesh m rows n := by
  have h1 : ∀ (rs : List (List Fl)) (T : Option Frame), D.macroPeaks env b' mesh m T (rs.map (reRow t)) = D.macroPeaks env b mesh m T rs := by
    intro rs
    induction rs with
    | nil => intro T; rfl
    | cons r rs ih =>
      intro T
      simp only [List.map_cons, Detector.macroPeaks, re_macroPeak ht D env hh]
      cases D.macroPeak env b mesh m r T with
      | error _ => rfl
      | ok T' => exact ih T'
  have h2 : ∀ fs : List ℕ, D.macroFrames env b' mesh m (rows.map (reRow t)) fs = D.macroFrames env b mesh m rows fs := by
    intro fs
    induction fs with
    | nil => rfl
    | cons f fs ih =>
      have hf : (rows.map (reRow t)).filter (fun r => decide (rcol r 28 = (f : ℝ))) = (rows.filter fun r => decide (rcol r 28 = (f : ℝ))).map (reRow t) := by
        rw [List.filter_map]
        congr 1
        apply List.filter_congr
        intro r _
        simp only [Function.comp]
        rw [re_rcol r (by omega)]
      unfold Detector.macroFrames
      rw [hf, h1, ih]
  unfold Detector.renderMacro
  rw [h2]
end rows

end scale
end XRD
