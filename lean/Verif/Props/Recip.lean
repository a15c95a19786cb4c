import Verif.Lemmas.Recip
import Verif.Props.Units

/-! Property C101: changing the unit of the crystal lengths (unit cells and wavelength). -/

namespace XRD.Spec
open XRD V3
/-- the same phase, given without a CIF file, with its cell edges in a unit of length `s` times smaller -/
def SamePhase (s : ℝ) (ph ph' : Phase) : Prop :=
  ∃ (a b c α β γ : ℝ) (sg : String), ph = Phase.new [a, b, c, α, β, γ] sg none ∧ ph' = Phase.new [s * a, s * b, s * c, α, β, γ] sg none
/-- The external crystallography functions do not depend on the unit of length: with edges multiplied by `s` the lattice matrix is divided
by `s`, and the planes between `s` times smaller limits of `sin θ / λ` are the same. -/
structure UnitFree (x : Xfab) : Prop where
  lattice : ∀ s > 0, ∀ a b c α β γ : ℝ, x.formB [s * a, s * b, s * c, α, β, γ] = (1 / s) • x.formB [a, b, c, α, β, γ]
  planes : ∀ s > 0, ∀ a b c α β γ lo hi : ℝ, ∀ sg,
    x.genhkl [s * a, s * b, s * c, α, β, γ] (lo / s) (hi / s) sg = x.genhkl [a, b, c, α, β, γ] lo hi sg
/-- The same beam, with its wavelength in a unit `s` times smaller. -/
def SameBeam (s : ℝ) (b b' : Beam) : Prop :=
  ∃ (q : Qhull) (vs : List V3) (dir : V3) (wl : ℝ) (pol : V3), Beam.new q vs dir wl pol = .ok b ∧ Beam.new q vs dir (s * wl) pol = .ok b'
/-- The same sample, with its unit cells in a unit `s` times smaller, and transformed by the same motions. -/
def SameSample (x : Xfab) (s : ℝ) (p p' : Polycrystal) : Prop :=
  ∃ (mesh : TetraMesh) (o e : MatArg) (ph ph' : PhasesArg) (map : Option (List ℝ)) (p0 p0' : Polycrystal) (hist : List (Motion × ℝ)),
    List.Forall₂ (SamePhase s) ph.toList ph'.toList ∧
    Polycrystal.new x mesh o e ph map = .ok p0 ∧ Polycrystal.new x mesh o e ph' map = .ok p0' ∧
    p = hist.foldl (fun q mt => q.transform mt.1 mt.2) p0 ∧ p' = hist.foldl (fun q mt => q.transform mt.1 mt.2) p0'
/-- names of the columns that hold reciprocal lengths -/
def recipColumns : List String := ["G0_x", "G0_y", "G0_z", "Gx", "Gy", "Gz", "K_out_x", "K_out_y", "K_out_z"]
/-- `row'` describes the event of `row` in a unit of crystal lengths `s` times smaller: scattering and wave vectors are divided by `s`, the
angular width is multiplied by `s` (it is the ratio of the wavelength to the size of the element), everything else is identical. -/
def SameEventIn (cols : List String) (s : ℝ) (row row' : List Fl) : Prop :=
  row'.length = row.length ∧
  (∀ name, name ∉ recipColumns → name ≠ "scherrer_fwhm" → ∀ v, Has cols row' name v ↔ Has cols row name v) ∧
  (∃ g, HasV cols row "G0_x" "G0_y" "G0_z" g ∧ HasV cols row' "G0_x" "G0_y" "G0_z" ((1 / s) • g)) ∧
  (∃ g, HasV cols row "Gx" "Gy" "Gz" g ∧ HasV cols row' "Gx" "Gy" "Gz" ((1 / s) • g)) ∧
  (∃ k, HasV cols row "K_out_x" "K_out_y" "K_out_z" k ∧ HasV cols row' "K_out_x" "K_out_y" "K_out_z" ((1 / s) • k)) ∧
  (∀ w, Has cols row "scherrer_fwhm" (.fin w) → Has cols row' "scherrer_fwhm" (.fin (s * w)))
end XRD.Spec

namespace XRD
open V3 M3 Fl Spec
open scoped Classical

section
variable {s : ℝ} {x : Xfab} {b b' : Beam} {m : Motion}

theorem re_samePhase (hs : 0 < s) (hx : UnitFree x) {ph ph' : Phase} (h : SamePhase s ph ph') : RePhase x (1 / s) ph ph' := by
  obtain ⟨a, b, c, α, β, γ, sg, rfl, rfl⟩ := h
  refine ⟨hx.lattice s hs a b c α β γ, fun wl lo hi => ?_⟩
  have e : ∀ u : ℝ, u / (wl / (1 / s)) = u / wl / s := by intro u; rw [div_div_eq_mul_div, mul_one_div, div_right_comm]
  unfold Phase.setup
  dsimp only [Phase.new]
  rw [e, e, hx.planes s hs]
  exact ⟨rfl, rfl⟩

theorem SameSample.re (hs : 0 < s) (hx : UnitFree x) {p p' : Polycrystal} (h : SameSample x s p p') : p.Re x (1 / s) p' := by
  obtain ⟨mesh, o, e, ph, ph', map, p0, p0', hist, hph, h0, h0', rfl, rfl⟩ := h
  have hr : List.Forall₂ (RePhase x (1 / s)) ph.toList ph'.toList := hph.imp fun _ _ => re_samePhase hs hx
  obtain ⟨p1, h1, hre⟩ := (re_poly_new mesh o e hr map).2 p0 h0
  rw [h0'] at h1
  obtain rfl := Except.ok.inj h1
  clear h0 h0' h1
  induction hist generalizing p0 p0' with
  | nil => exact hre
  | cons mt hist ih => exact ih _ _ (re_transform hre mt.1 mt.2)

theorem SameBeam.re (hs : 0 < s) (h : SameBeam s b b') : b.Re (1 / s) b' := by
  obtain ⟨q, vs, dir, wl, pol, h1, h2⟩ := h
  unfold Beam.new at h1 h2
  dsimp only at h1 h2
  split_ifs at h1 h2 with hw
  obtain rfl := Except.ok.inj h1
  obtain rfl := Except.ok.inj h2
  have hwl : s * wl ≠ 0 := by assumption
  refine ⟨?_, ?_, rfl, rfl⟩
  · ext <;> simp <;> field_simp
  · show s * wl = wl / (1 / s)
    field_simp

theorem re_limits (hs : 0 < s) {p p' : Polycrystal} (hp : p.Re x (1 / s) p') (hb : b.Re (1 / s) b') (lo hi : ℝ) (det : Option Detector) :
    p'.limits b' lo hi det = p.limits b lo hi det := by
  have hm : p'.meshLab = p.meshLab := by rw [hp.eq]
  have hsp : p'.sourcePoint b' = p.sourcePoint b := by
    unfold Polycrystal.sourcePoint
    simp only [hm, hb.contains]
  cases det with
  | none => rfl
  | some D =>
    unfold Polycrystal.limits Polycrystal.braggBounds
    dsimp only
    rw [hsp, hb.wave, re_wrappingCone (by positivity)]

theorem re_setup {p p' : Polycrystal} {t : ℝ} (hp : p.Re x t p') (wl lo hi : ℝ) :
    (p.setupPhases x wl lo hi).crystal.Re t (p'.setupPhases x (wl / t) lo hi).crystal := by
  have h3 : List.Forall₂ (fun ph ph' : Phase => ph'.miller = ph.miller ∧ ph'.structureFactors = ph.structureFactors)
      (p.phases.map fun ph => ph.setup x wl lo hi) (p'.phases.map fun ph => ph.setup x (wl / t) lo hi) := by
    rw [List.forall₂_map_left_iff, List.forall₂_map_right_iff]
    exact hp.phases.imp fun ph ph' h => h.2 wl lo hi
  have e := hp.eq
  generalize p'.phases = P at h3 e
  subst e
  exact ⟨rfl, rfl, h3, rfl, rfl, rfl, rfl⟩

theorem re_diffract (hs : 0 < s) {p p' : Polycrystal} (hp : p.Re x (1 / s) p') (hb : b.Re (1 / s) b') (lo hi : ℝ) (det : Option Detector) :
    (p'.diffract x b' m lo hi det).map Prod.fst = (p.diffract x b m lo hi det).map fun r => r.1.re (1 / s) b' := by
  unfold Polycrystal.diffract
  rw [re_limits hs hp hb]
  cases p.limits b lo hi det with
  | error e => rfl
  | ok r =>
    obtain ⟨lo', hi'⟩ := r
    dsimp only
    rw [hb.wavelength, re_diffractCore (by positivity) (re_setup hp b.wavelength lo' hi') hb]
    cases diffractCore (p.setupPhases x b.wavelength lo' hi').crystal b m with
    | error e => rfl
    | ok d => rfl

/-- the vectors of the rows of `diffract` are finite -/
theorem core_vecs {c : Crystal} {d : PeaksDict} (h : diffractCore c b m = .ok d) : ∀ row ∈ d.peaks,
    (∃ g, vecAt row 7 = some g) ∧ (∃ g, vecAt row 10 = some g) ∧ ∃ k, vecAt row 13 = some k := by
  unfold diffractCore at h
  cases hp : computePeaks c b m with
  | error e => rw [hp] at h; cases h
  | ok rows =>
    rw [hp] at h
    obtain rfl := Except.ok.inj h
    obtain rfl := computePeaks_ok hp
    intro row hrow
    simp only [List.mem_mapIdx] at hrow
    obtain ⟨idx, hidx, rfl⟩ := hrow
    have hm := List.getElem_mem hidx
    obtain ⟨r, hr, hre⟩ := List.mem_map.mp (List.mem_filter.mp hm).1
    rw [← hre]
    have hl := allPhaseRows_len hr
    match r, hl with
    | [a0, a1, a2, a3, a4, a5, a6, a7, a8, a9], _ => exact ⟨⟨_, rfl⟩, ⟨_, rfl⟩, _, rfl⟩

theorem sameEvent_row (hs : 0 < s) (rest : List String) (hrest : ∀ c ∈ rest, c ∉ recipColumns ∧ c ≠ "scherrer_fwhm")
    {row : List Fl} (h7 : ∃ g, vecAt row 7 = some g) (h10 : ∃ g, vecAt row 10 = some g) (h13 : ∃ g, vecAt row 13 = some g) :
    SameEventIn (peakColumns ++ rest) s row (reRow (1 / s) row) := by
  have hV : ∀ i : ℕ, i = 7 ∨ i = 10 ∨ i = 13 → ∀ g, vecAt row i = some g → ∀ n0 n1 n2 : String, (peakColumns ++ rest)[i]? = some n0 →
      (peakColumns ++ rest)[i + 1]? = some n1 → (peakColumns ++ rest)[i + 2]? = some n2 →
      HasV (peakColumns ++ rest) row n0 n1 n2 g ∧ HasV (peakColumns ++ rest) (reRow (1 / s) row) n0 n1 n2 ((1 / s) • g) := by
    intro i hi g h n0 n1 n2 e0 e1 e2
    unfold vecAt at h
    split at h
    · rename_i h1 h2 h3
      obtain rfl := Option.some.inj h
      refine ⟨⟨⟨i, e0, h1⟩, ⟨i + 1, e1, h2⟩, ⟨i + 2, e2, h3⟩⟩, ⟨i, e0, ?_⟩, ⟨i + 1, e1, ?_⟩, ⟨i + 2, e2, ?_⟩⟩
      · have hr : 7 ≤ i ∧ i ≤ 15 := by omega
        rw [reRow_get, h1]; simp [reAt, hr]
      · have hr : 7 ≤ i + 1 ∧ i + 1 ≤ 15 := by omega
        rw [reRow_get, h2]; simp only [Option.map_some, reAt, if_pos hr]; rfl
      · have hr : 7 ≤ i + 2 ∧ i + 2 ≤ 15 := by omega
        rw [reRow_get, h3]; simp only [Option.map_some, reAt, if_pos hr]; rfl
    · cases h
  obtain ⟨g0, h7⟩ := h7
  obtain ⟨g, h10⟩ := h10
  obtain ⟨k, h13⟩ := h13
  refine ⟨reRow_length _ row, ?_, ⟨g0, hV 7 (by simp) _ h7 _ _ _ rfl rfl rfl⟩, ⟨g, hV 10 (by simp) _ h10 _ _ _ rfl rfl rfl⟩,
    ⟨k, hV 13 (by simp) _ h13 _ _ _ rfl rfl rfl⟩, ?_⟩
  · intro name hn hw u
    have key : ∀ i : ℕ, (peakColumns ++ rest)[i]? = some name → (reRow (1 / s) row)[i]? = row[i]? := by
      intro i hi
      have hne : ¬ (7 ≤ i ∧ i ≤ 15) ∧ i ≠ 23 := by
        constructor
        · rintro ⟨ha, hb⟩
          apply hn
          interval_cases i <;> (obtain rfl := Option.some.inj hi; decide)
        · rintro rfl
          exact hw (Option.some.inj hi).symm
      rw [reRow_get]
      cases row[i]? <;> simp [reAt, hne]
    constructor
    · rintro ⟨i, h1, h2⟩; exact ⟨i, h1, by rw [← key i h1]; exact h2⟩
    · rintro ⟨i, h1, h2⟩; exact ⟨i, h1, by rw [key i h1]; exact h2⟩
  · rintro w ⟨i, h1, h2⟩
    have hi : i = 23 := by
      by_cases hlt : i < peakColumns.length
      · rw [List.getElem?_append_left hlt] at h1
        have hnd : peakColumns.Nodup := by decide
        obtain ⟨b0, e0⟩ := List.getElem?_eq_some_iff.mp h1
        exact (hnd.getElem_inj_iff (hj := by decide)).mp (by rw [e0]; rfl)
      · rw [List.getElem?_append_right (by omega)] at h1
        exact absurd rfl (hrest _ (List.mem_of_getElem? h1)).2
    subst hi
    refine ⟨23, rfl, ?_⟩
    rw [reRow_get, h2]
    have : (1 / s) ≠ 0 := by positivity
    simp only [Option.map_some, reAt]
    norm_num
    rw [div_fin_ne (inv_ne_zero hs.ne')]
    congr 1
    field_simp

/-- C101: a sample can be built with its unit cells in one unit of length exactly when it can be built in another, with the same error
otherwise; and only the lattice matrices differ (divided by the factor). -/
theorem C101_sample (hs : 0 < s) (hx : UnitFree x) (mesh : TetraMesh) (o e : MatArg) (ph ph' : PhasesArg)
    (hph : List.Forall₂ (SamePhase s) ph.toList ph'.toList) (map : Option (List ℝ)) :
    (∀ err, Polycrystal.new x mesh o e ph' map = .error err ↔ Polycrystal.new x mesh o e ph map = .error err) ∧
    ∀ p, Polycrystal.new x mesh o e ph map = .ok p → ∃ p', Polycrystal.new x mesh o e ph' map = .ok p' ∧
      p'.eB = p.eB.map ((1 / s) • ·) ∧ p'.meshLab = p.meshLab ∧ p'.orientationLab = p.orientationLab ∧ p'.strainLab = p.strainLab ∧
      p'.phaseMap = p.phaseMap ∧ p'.phases = ph'.toList := by
  have hr : List.Forall₂ (RePhase x (1 / s)) ph.toList ph'.toList := hph.imp fun _ _ => re_samePhase hs hx
  obtain ⟨h1, h2⟩ := re_poly_new mesh o e hr map
  refine ⟨h1, fun p hp => ?_⟩
  obtain ⟨p', hp', hre⟩ := h2 p hp
  obtain ⟨_, _, _, _, _, -, -, -, -, rfl⟩ := Polycrystal.new_ok hp'
  have e := hre.eq
  exact ⟨_, hp', by rw [e], by rw [e], by rw [e], by rw [e], by rw [e], rfl⟩

/-- C101: the peaks in another unit of crystal lengths.  If the cell edges of all phases and the wavelength are multiplied by `s`, the call
fails or succeeds as before, and reports the same peaks in the same order: the scattering and wave vectors are divided by `s`, the Scherrer
widths multiplied by `s`, and nothing else changes (times, Bragg angles, intensity factors, sources). -/
theorem C101_peaks (hs : 0 < s) (hx : UnitFree x) (p p' : Polycrystal) (hp : SameSample x s p p') (hb : SameBeam s b b') (lo hi : ℝ)
    (det : Option Detector) :
    (∀ e, p'.diffract x b' m lo hi det = .error e ↔ p.diffract x b m lo hi det = .error e) ∧
    ∀ d p1, p.diffract x b m lo hi det = .ok (d, p1) → ∃ d' p1', p'.diffract x b' m lo hi det = .ok (d', p1') ∧
      d'.columns = d.columns ∧ d'.incident = (1 / s) • d.incident ∧ List.Forall₂ (SameEventIn d.columns s) d.peaks d'.peaks := by
  have key := re_diffract (m := m) hs (SameSample.re hs hx hp) (SameBeam.re hs hb) lo hi det
  refine ⟨fun e => ?_, ?_⟩
  · cases h1 : p.diffract x b m lo hi det with
    | error e' =>
      cases h2 : p'.diffract x b' m lo hi det with
      | error e'' =>
        rw [h1, h2] at key
        rw [show e'' = e' from Except.error.inj key]
      | ok r => rw [h1, h2] at key; cases key
    | ok r =>
      cases h2 : p'.diffract x b' m lo hi det with
      | error e'' => rw [h1, h2] at key; cases key
      | ok r' => constructor <;> (intro hh; cases hh)
  · intro d p1 hd
    rw [hd] at key
    cases h2 : p'.diffract x b' m lo hi det with
    | error e'' => rw [h2] at key; cases key
    | ok r' =>
      rw [h2] at key
      obtain ⟨d', p1'⟩ := r'
      obtain rfl : d' = d.re (1 / s) b' := Except.ok.inj key
      obtain ⟨_, _, -, -, hcore⟩ := Polycrystal.diffract_ok hd
      have hc := diffract_columns hcore
      have hr := core_vecs hcore
      have hinc : d.incident = b.waveVector := by
        unfold diffractCore at hcore
        split at hcore
        · cases hcore
        · obtain rfl := Except.ok.inj hcore; rfl
      refine ⟨_, _, rfl, rfl, by rw [hinc]; exact (SameBeam.re hs hb).wave, ?_⟩
      show List.Forall₂ _ d.peaks (d.peaks.map (reRow (1 / s)))
      rw [List.forall₂_map_right_iff, List.forall₂_same, hc]
      intro row hrow
      have := sameEvent_row hs [] (by simp) (hr row hrow).1 (hr row hrow).2.1 (hr row hrow).2.2
      rwa [List.append_nil] at this

theorem re_dicts (hs : 0 < s) (hx : UnitFree x) {p p' : Polycrystal} (hp : SameSample x s p p') (hb : SameBeam s b b') {lo hi : ℝ}
    {det : Option Detector} {d d' : PeaksDict} {p1 p1' : Polycrystal}
    (hd : p.diffract x b m lo hi det = .ok (d, p1)) (hd' : p'.diffract x b' m lo hi det = .ok (d', p1')) :
    d' = d.re (1 / s) b' ∧ (∀ row ∈ d.peaks, row.length = 25) ∧ d.columns = peakColumns ∧ d.beam = b ∧
      ∀ row ∈ d.peaks, (∃ g, vecAt row 7 = some g) ∧ (∃ g, vecAt row 10 = some g) ∧ ∃ k, vecAt row 13 = some k := by
  have key := re_diffract (m := m) hs (SameSample.re hs hx hp) (SameBeam.re hs hb) lo hi det
  rw [hd, hd'] at key
  obtain ⟨_, _, -, -, hcore⟩ := Polycrystal.diffract_ok hd
  obtain ⟨hc, hr⟩ := core_shape hcore
  have hbe : d.beam = b := by
    have h := hcore
    unfold diffractCore at h
    split at h
    · cases h
    · obtain rfl := Except.ok.inj h; rfl
  exact ⟨Except.ok.inj key, fun row hrow => (hr row hrow).1, hc, hbe, core_vecs hcore⟩

/-- C101: the hits in another unit of crystal lengths: same hits in the same order, at the same place on the detector, at the same incidence
angle, in the same frame and with the same intensity factor. -/
theorem C101_hits (hs : 0 < s) (hx : UnitFree x) (p p' : Polycrystal) (hp : SameSample x s p p') (hb : SameBeam s b b') (lo hi : ℝ)
    (det : Option Detector) (d d' : PeaksDict) (p1 p1' : Polycrystal)
    (hd : p.diffract x b m lo hi det = .ok (d, p1)) (hd' : p'.diffract x b' m lo hi det = .ok (d', p1')) (D : Detector) (n : ℤ) :
    (D.peaksIntersection d' n).columns = (D.peaksIntersection d n).columns ∧
    List.Forall₂ (SameEventIn (D.peaksIntersection d n).columns s) (D.peaksIntersection d n).peaks (D.peaksIntersection d' n).peaks := by
  obtain ⟨rfl, hlen, hc, -, hv⟩ := re_dicts hs hx hp hb hd hd'
  rw [re_peaksIntersection (by positivity) D d b' n hlen]
  refine ⟨rfl, ?_⟩
  show List.Forall₂ _ _ ((D.peaksIntersection d n).peaks.map (reRow (1 / s)))
  rw [List.forall₂_map_right_iff, List.forall₂_same]
  have hcols : (D.peaksIntersection d n).columns = peakColumns ++ ["zd", "yd", "incident_angle", "frame", "intensity_factors"] := by
    show d.columns ++ _ = _; rw [hc]
  intro row hrow
  rw [hcols]
  rw [peaksIntersection_rows D d n hlen] at hrow
  obtain ⟨q, hq, rfl⟩ := List.mem_map.mp hrow
  obtain ⟨hq, -⟩ := List.mem_filter.mp hq
  have h30 : row30 D n q = q ++ (D.rowIntersect q ++ [Detector.rowFrame n q, D.rowIntensity q]) := by unfold row30; simp
  have hlt : ∀ i < 25, (row30 D n q)[i]? = q[i]? := by
    intro i hi
    rw [h30, List.getElem?_append_left (by rw [hlen q hq]; exact hi)]
  have hva : ∀ i < 20, vecAt (row30 D n q) i = vecAt q i := by
    intro i hi
    unfold vecAt
    rw [hlt i (by omega), hlt (i + 1) (by omega), hlt (i + 2) (by omega)]
  obtain ⟨k1, k2, k3⟩ := hv q hq
  refine sameEvent_row hs _ (by decide) ?_ ?_ ?_
  · rw [hva 7 (by norm_num)]; exact k1
  · rw [hva 10 (by norm_num)]; exact k2
  · rw [hva 13 (by norm_num)]; exact k3

/-- C101: the `micro` and `macro` images do not depend on the unit of crystal lengths.  (The hulls that `macro` renders are computed from
the beam's vertices and half-spaces, which are the same.) -/
theorem C101_images (hs : 0 < s) (hx : UnitFree x) (p p' : Polycrystal) (hp : SameSample x s p p') (hb : SameBeam s b b') (lo hi : ℝ)
    (det : Option Detector) (d d' : PeaksDict) (p1 p1' : Polycrystal)
    (hd : p.diffract x b m lo hi det = .ok (d, p1)) (hd' : p'.diffract x b' m lo hi det = .ok (d', p1')) (D : Detector) (env : RenderEnv)
    (henv : ∀ vs, env.hull b' vs = env.hull b vs) (mesh : TetraMesh) (frames : ℤ) (method : Detector.Method) (hmet : method = .micro ∨ method = .macro)
    (ml : Option ℝ) (mi : ℝ) :
    (D.render env d' mesh frames method ml mi).map Prod.fst = (D.render env d mesh frames method ml mi).map Prod.fst := by
  obtain ⟨rfl, hlen, hc, hbe, hv⟩ := re_dicts hs hx hp hb hd hd'
  have ht : (0 : ℝ) < 1 / s := by positivity
  unfold Detector.render
  dsimp only
  rw [re_peaksIntersection ht D d b' _ hlen]
  rcases hmet with rfl | rfl
  · dsimp only
    rw [show ((D.peaksIntersection d (if frames < 1 then 1 else frames)).re (1 / s) b').peaks =
      (D.peaksIntersection d (if frames < 1 then 1 else frames)).peaks.map (reRow (1 / s)) from rfl, re_renderMicro]
    cases D.renderMicro env.freeGb _ _ <;> rfl
  · dsimp only
    rw [show ((D.peaksIntersection d (if frames < 1 then 1 else frames)).re (1 / s) b').peaks =
      (D.peaksIntersection d (if frames < 1 then 1 else frames)).peaks.map (reRow (1 / s)) from rfl]
    rw [show (d.re (1 / s) b').beam = b' from rfl, show (d.re (1 / s) b').motion = d.motion from rfl, hbe,
      re_renderMacro ht D env henv]
    cases D.renderMacro env b mesh d.motion _ _ <;> rfl

/-- C101, with C82: one unit for everything.  When the lengths of the laboratory and those of the crystals are multiplied by the same factor,
the angular widths of the peaks are the same numbers as before, as are all their times, angles, Miller indices and intensity factors. -/
theorem C101_one_unit (hs : 0 < s) (hx : UnitFree x) (p p' p'' : Polycrystal) (hp : ScaledPoly s p p') (hp' : SameSample x s p' p'')
    {m' : Motion} {b'' : Beam} (h : ScaledSetup s b b' m m') (hb : SameBeam s b' b'') (lo hi : ℝ) (det det' : Option Detector)
    (hdet : Option.Rel (ScaledDetector s) det det') (d : PeaksDict) (p1 : Polycrystal) (hd : p.diffract x b m lo hi det = .ok (d, p1)) :
    ∃ d'' p1'', p''.diffract x b'' m' lo hi det' = .ok (d'', p1'') ∧ d''.columns = d.columns ∧
      List.Forall₂ (fun row row'' =>
        (∀ w, Has d.columns row "scherrer_fwhm" (fin w) → Has d.columns row'' "scherrer_fwhm" (fin w)) ∧
        ∀ name ∈ ["grain_index", "phase_number", "h", "k", "l", "structure_factors", "diffraction_times", "lorentz_factors",
          "polarization_factors", "2theta", "peak_index"], ∀ v, Has d.columns row'' name v ↔ Has d.columns row name v) d.peaks d''.peaks := by
  obtain ⟨d', p1', hd', hc', hf'⟩ := (C82_peaks hs x p p' hp h lo hi det det' hdet).2 d p1 hd
  obtain ⟨d'', p1'', hd'', hc'', -, hf''⟩ := (C101_peaks (m := m') hs hx p' p'' hp' hb lo hi det').2 d' p1' hd'
  refine ⟨d'', p1'', hd'', hc''.trans hc', ?_⟩
  have key : ∀ {A B C : List (List Fl)}, List.Forall₂ (EventScaled d.columns s) A B → List.Forall₂ (SameEventIn d.columns s) B C →
      List.Forall₂ (fun row row'' =>
        (∀ w, Has d.columns row "scherrer_fwhm" (fin w) → Has d.columns row'' "scherrer_fwhm" (fin w)) ∧
        ∀ name ∈ ["grain_index", "phase_number", "h", "k", "l", "structure_factors", "diffraction_times", "lorentz_factors",
          "polarization_factors", "2theta", "peak_index"], ∀ v, Has d.columns row'' name v ↔ Has d.columns row name v) A C := by
    intro A B C h1
    induction h1 generalizing C with
    | nil => intro h2; cases h2; exact .nil
    | cons hab _ ih =>
      intro h2
      cases h2 with
      | cons hbc hrest =>
        refine .cons ⟨fun w hw => ?_, fun name hn v => ?_⟩ (ih hrest)
        · have h3 := hbc.2.2.2.2.2 _ (hab.2.2.2.2 w hw)
          rwa [mul_div_cancel₀ _ hs.ne'] at h3
        · have n1 : (name ∉ lengthColumns ∧ name ≠ "zd" ∧ name ≠ "yd") ∧ name ∉ recipColumns ∧ name ≠ "scherrer_fwhm" := by
            simp only [List.mem_cons, List.not_mem_nil, or_false] at hn
            rcases hn with rfl | rfl | rfl | rfl | rfl | rfl | rfl | rfl | rfl | rfl | rfl <;> decide
          exact (hbc.2.1 name n1.2.1 n1.2.2 v).trans (hab.2.1 name n1.1 v)
  rw [hc'] at hf''
  exact key hf' hf''

/-- C101, limit: whether a beam is accepted does depend on the unit of the wavelength.  A beam accepted in one unit is accepted in another
exactly when the component of its wave vector along the polarisation, which scales with the unit, stays within the fixed `1e-8`. -/
theorem C101_beam_iff (hs : 0 < s) (q : Qhull) (vs : List V3) (dir : V3) (wl : ℝ) (pol : V3) (h : Beam.new q vs dir wl pol = .ok b) :
    (∃ b', Beam.new q vs dir (s * wl) pol = .ok b') ↔ |b.polarization.dot b.waveVector| ≤ s / 10 ^ 8 := by
  unfold Beam.new at h ⊢
  dsimp only at h ⊢
  split_ifs at h with h1 h2 h3 h4
  obtain rfl := Except.ok.inj h
  rw [if_neg (mul_ne_zero hs.ne' h1), if_neg h2, if_neg h3]
  have e : (2 * Real.pi / (s * wl)) • ((1 / dir.norm) • dir) = (1 / s) • (2 * Real.pi / wl) • ((1 / dir.norm) • dir) := by
    ext <;> simp <;> field_simp
  rw [e, sc_dot']
  dsimp only
  generalize ((1 / pol.norm) • pol).dot ((2 * Real.pi / wl) • ((1 / dir.norm) • dir)) = z
  have ha : allclose (1 / s * z) 0 ↔ |z| ≤ s / 10 ^ 8 := by
    unfold allclose
    rw [sub_zero, abs_zero, MulZeroClass.mul_zero, add_zero, abs_mul, abs_of_pos (by positivity : (0 : ℝ) < 1 / s), one_div, inv_mul_le_iff₀ hs,
      ← mul_div_assoc, mul_one]
  rw [← ha]
  split_ifs with h5
  · exact iff_of_true ⟨_, rfl⟩ h5
  · exact iff_of_false (by rintro ⟨_, hh⟩; cases hh) h5

/-- C101 fails for beams near the tolerance: the same beam, with the same polarisation a nanoradian off, is accepted with its wavelength in
one unit and rejected in a unit a hundred times larger. -/
theorem C101_beam_fails : ∃ (q : Qhull) (vs : List V3) (dir : V3) (wl : ℝ) (pol : V3) (b : Beam), Beam.new q vs dir wl pol = .ok b ∧
    ∀ b', Beam.new q vs dir (1 / 100 * wl) pol ≠ .ok b' := by
  have hpi := Real.pi_pos
  have hn : (⟨1, 0, 0⟩ : V3).norm = 1 := by rw [norm_eq_one]; simp [nsq, V3.dot]
  have hp1 : (1 : ℝ) ≤ (⟨1 / 10 ^ 9, 0, 1⟩ : V3).norm := by
    unfold V3.norm; rw [Real.le_sqrt (by norm_num) (by norm_num [nsq, V3.dot])]
    norm_num [nsq, V3.dot]
  have hp2 : (⟨1 / 10 ^ 9, 0, 1⟩ : V3).norm ≤ 2 := by
    unfold V3.norm; rw [Real.sqrt_le_left (by norm_num)]
    norm_num [nsq, V3.dot]
  set N := (⟨1 / 10 ^ 9, 0, 1⟩ : V3).norm with hN
  have hd : ((1 / N) • (⟨1 / 10 ^ 9, 0, 1⟩ : V3)).dot ((2 * Real.pi / (2 * Real.pi)) • ((1 / (⟨1, 0, 0⟩ : V3).norm) • (⟨1, 0, 0⟩ : V3)))
      = 1 / N / 10 ^ 9 := by
    rw [hn, div_self (by positivity)]; simp [V3.dot]; ring
  have hN1 : 1 / N ≤ 1 := by rw [div_le_one (by linarith)]; exact hp1
  have hN2 : 1 / 2 ≤ 1 / N := one_div_le_one_div_of_le (by linarith) hp2
  have hok : Beam.new ⟨List.length, fun _ => []⟩ [] ⟨1, 0, 0⟩ (2 * Real.pi) ⟨1 / 10 ^ 9, 0, 1⟩ =
      .ok ⟨(2 * Real.pi / (2 * Real.pi)) • ((1 / (⟨1, 0, 0⟩ : V3).norm) • (⟨1, 0, 0⟩ : V3)), 2 * Real.pi, [], meanV [], [],
        (1 / N) • ⟨1 / 10 ^ 9, 0, 1⟩⟩ := by
    unfold Beam.new
    rw [if_neg (by positivity), if_neg (by simp)]
    dsimp only
    rw [if_neg (by rintro (h | h) <;> simp [V3.ext_iff] at h), if_pos]
    rw [← hN, hd]
    unfold allclose
    rw [sub_zero, abs_of_pos (by positivity)]
    norm_num
    rw [one_div] at hN1
    linarith
  refine ⟨_, _, _, _, _, _, hok, fun b' hb' => ?_⟩
  have := (C101_beam_iff (s := 1 / 100) (by norm_num) _ _ _ _ _ hok).mp ⟨b', hb'⟩
  dsimp only at this
  rw [hd, abs_of_pos (by positivity)] at this
  norm_num at this
  rw [one_div, one_div] at hN2
  linarith

/-- a generator for cubic cells that does not depend on the unit of length -/
noncomputable def unitX : Xfab :=
  { formB := fun l => (1 / l.headD 1) • sceneB
    genhkl := fun l lo hi _ => if l.headD 1 * lo ≤ norm (sceneB.mulVec ⟨1, 0, 0⟩) / (4 * Real.pi) ∧
      norm (sceneB.mulVec ⟨1, 0, 0⟩) / (4 * Real.pi) ≤ l.headD 1 * hi then [⟨1, 0, 0⟩] else []
    sfBatch := fun h _ _ _ => h.map fun _ => (1, 0) }

theorem unitX_free : UnitFree unitX := by
  refine ⟨fun s hs a b c α β γ => ?_, fun s hs a b c α β γ lo hi sg => ?_⟩
  · simp only [unitX, List.headD_cons]
    ext <;> simp <;> ring
  · simp only [unitX, List.headD_cons]
    have e1 : s * a * (lo / s) = a * lo := by field_simp
    have e2 : s * a * (hi / s) = a * hi := by field_simp
    refine if_congr ?_ rfl rfl
    show s * a * (lo / s) ≤ _ ∧ _ ≤ s * a * (hi / s) ↔ a * lo ≤ _ ∧ _ ≤ a * hi
    rw [e1, e2]

theorem unitX_new : Polycrystal.new unitX sceneMesh (.one 1) (.one 0) (.one scenePhase) (some [0]) = .ok scenePoly := by
  rw [← scenePoly_new]
  have h : unitX.formB scenePhase.unitCell = sceneX.formB scenePhase.unitCell := by
    simp only [unitX, xOf, scenePhase, Phase.new, List.headD_cons]
    ext <;> simp
  unfold Polycrystal.new instantiateEB
  simp only [PhasesArg.toList, eBLoop, eBStep, h]

theorem unitX_setup (wl lo hi : ℝ) : scenePhase.setup unitX wl lo hi = scenePhase.setup sceneX wl lo hi := by
  simp [Phase.setup, scenePhase, Phase.new, unitX, xOf]

/-- non-vacuity: the scene, with its cell and wavelength in any unit, diffracts, and there are peaks -/
example (hs : 0 < s) : ∃ b' p' d p1 d' p1', SameBeam s demoBeam b' ∧ SameSample unitX s scenePoly p' ∧
    scenePoly.diffract unitX demoBeam demoZ 0 (Real.pi / 2) none = .ok (d, p1) ∧
    p'.diffract unitX b' demoZ 0 (Real.pi / 2) none = .ok (d', p1') ∧ d.peaks ≠ [] ∧ d'.peaks ≠ [] := by
  have hb : ∃ b', SameBeam s demoBeam b' := by
    obtain ⟨b', hb'⟩ := (C101_beam_iff hs _ _ _ _ _ demoBeam_new).mpr (by
      have : demoBeam.polarization.dot demoBeam.waveVector = 0 := by simp [demoBeam, V3.dot]
      rw [this, abs_zero]; positivity)
    exact ⟨b', _, _, _, _, _, demoBeam_new, hb'⟩
  obtain ⟨b', hb⟩ := hb
  have hph : List.Forall₂ (SamePhase s) (PhasesArg.one scenePhase).toList
      (PhasesArg.one (Phase.new [s * 1, s * 1, s * 1, 90, 90, 90] "P1" none)).toList :=
    .cons ⟨1, 1, 1, 90, 90, 90, "P1", rfl, rfl⟩ .nil
  obtain ⟨p', hp', -⟩ := (C101_sample hs unitX_free sceneMesh (.one 1) (.one 0) _ _ hph (some [0])).2 _ unitX_new
  have hS : SameSample unitX s scenePoly p' := ⟨_, _, _, _, _, _, _, _, [], hph, unitX_new, hp', rfl, rfl⟩
  have h2 : Real.sqrt 2 / 2 ≤ 1 := by
    have : Real.sqrt 2 ≤ 2 := by rw [Real.sqrt_le_left (by norm_num)]; norm_num
    linarith
  obtain ⟨d, p1, hd, -, row, hrow, -⟩ := scene_diffract none 0 (Real.pi / 2) 0 (Real.pi / 2) rfl (by rw [Real.sin_zero]; positivity)
    (by rw [Real.sin_pi_div_two]; exact h2)
  have hd' : scenePoly.diffract unitX demoBeam demoZ 0 (Real.pi / 2) none = .ok (d, p1) := by
    rw [← hd]
    unfold Polycrystal.diffract Polycrystal.limits
    dsimp only
    have : scenePoly.setupPhases unitX demoBeam.wavelength 0 (Real.pi / 2) = scenePoly.setupPhases sceneX demoBeam.wavelength 0 (Real.pi / 2) := by
      unfold Polycrystal.setupPhases
      simp only [polyOf, List.map_cons, List.map_nil, unitX_setup]
    rw [this]
  obtain ⟨d', p1', hdd, -, -, hf⟩ := (C101_peaks (m := demoZ) hs unitX_free scenePoly p' hS hb 0 (Real.pi / 2) none).2 d p1 hd'
  have hne : d.peaks ≠ [] := List.ne_nil_of_mem hrow
  refine ⟨b', p', d, p1, d', p1', hb, hS, hd', hdd, hne, ?_⟩
  intro e
  apply hne
  rw [e] at hf
  exact List.forall₂_nil_right_iff.mp hf

end
end XRD
