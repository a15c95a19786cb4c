import Verif.Props.Detector

/-! Properties C22, C34, C37. -/

namespace XRD
open V3 M3 Fl Spec
open scoped Classical

/-! ### C22 -/

theorem Fl.one_mul (a : Fl) : fin 1 * a = a := by
  cases a with
  | fin r => rw [Fl.mul_fin, _root_.one_mul]
  | pinf => show infSign 1 = _; simp [infSign]
  | ninf => show infSign (-1) = _; simp [infSign]
  | nan => rfl

theorem Fl.lt_zero_fin {a : Fl} : (IsFinite a ∧ Fl.Lt (fin 0) a) ↔ ∃ r, a = fin r ∧ 0 < r := by
  cases a with
  | fin r => simp
  | pinf => simp
  | ninf => simp
  | nan => simp

theorem len25 {row : List Fl} (h : row.length = 25) : ∃ a0 a1 a2 a3 a4 a5 a6 a7 a8 a9 a10 a11 a12 a13 a14 a15 a16 a17 a18 a19 a20
    a21 a22 a23 a24, row = [a0, a1, a2, a3, a4, a5, a6, a7, a8, a9, a10, a11, a12, a13, a14, a15, a16, a17, a18, a19, a20,
    a21, a22, a23, a24] := by
  match row, h with
  | [a0, a1, a2, a3, a4, a5, a6, a7, a8, a9, a10, a11, a12, a13, a14, a15, a16, a17, a18, a19, a20, a21, a22, a23, a24], _ =>
    exact ⟨a0, a1, a2, a3, a4, a5, a6, a7, a8, a9, a10, a11, a12, a13, a14, a15, a16, a17, a18, a19, a20, a21, a22, a23, a24, rfl⟩

/-- the 30-column row of an accepted peak -/
noncomputable def row30 (D : Detector) (n : ℤ) (row : List Fl) : List Fl :=
  row ++ D.rowIntersect row ++ [Detector.rowFrame n row] ++ [D.rowIntensity row]

theorem rowIntersect_length (D : Detector) (row : List Fl) : (D.rowIntersect row).length = 3 := by
  unfold Detector.rowIntersect; split <;> rfl

theorem peaksIntersection_rows (D : Detector) (d : PeaksDict) (n : ℤ) (hlen : ∀ r ∈ d.peaks, r.length = 25) :
    (D.peaksIntersection d n).peaks = (d.peaks.filter fun row =>
      D.contains ((D.rowIntersect row).getD 0 nan) ((D.rowIntersect row).getD 1 nan) ∧
      Fl.IsFinite (D.rowIntensity row) ∧ Fl.Lt (fin 0) (D.rowIntensity row)).map (row30 D n) := by
  unfold Detector.peaksIntersection
  simp only
  generalize d.peaks = l at hlen
  induction l with
  | nil => rfl
  | cons r l ih =>
    have ih' := ih (fun q hq => hlen q (List.mem_cons_of_mem _ hq))
    obtain ⟨a0, a1, a2, a3, a4, a5, a6, a7, a8, a9, a10, a11, a12, a13, a14, a15, a16, a17, a18, a19, a20, a21, a22, a23, a24, rfl⟩ :=
      len25 (hlen r List.mem_cons_self)
    set r := [a0, a1, a2, a3, a4, a5, a6, a7, a8, a9, a10, a11, a12, a13, a14, a15, a16, a17, a18, a19, a20, a21, a22, a23, a24] with hr
    obtain ⟨z, y, w, hz⟩ : ∃ z y w, D.rowIntersect r = [z, y, w] := by
      match D.rowIntersect r, rowIntersect_length D r with
      | [z, y, w], _ => exact ⟨z, y, w, rfl⟩
    have e25 : (r ++ D.rowIntersect r).getD 25 nan = z := by rw [hz]; rfl
    have e26 : (r ++ D.rowIntersect r).getD 26 nan = y := by rw [hz]; rfl
    have ef : Detector.rowFrame n (r ++ D.rowIntersect r) = Detector.rowFrame n r := rfl
    have ei : ∀ s : List Fl, D.rowIntensity (r ++ s) = D.rowIntensity r := fun s => rfl
    have e29 : (r ++ D.rowIntersect r ++ [Detector.rowFrame n r] ++ [D.rowIntensity r]).getD 29 nan = D.rowIntensity r := by
      rw [hz]; rfl
    have g0 : (D.rowIntersect r).getD 0 nan = z := by rw [hz]; rfl
    have g1 : (D.rowIntersect r).getD 1 nan = y := by rw [hz]; rfl
    have hint : D.rowIntensity (r ++ D.rowIntersect r ++ [Detector.rowFrame n r]) = D.rowIntensity r := by
      rw [List.append_assoc]; exact ei _
    rw [List.map_cons, List.filter_cons, List.filter_cons, e25, e26, g0, g1]
    by_cases hc : D.contains z y
    · rw [if_pos (by simp [hc]), List.map_cons, List.map_cons, List.filter_cons, ef, hint, e29]
      by_cases hi : Fl.IsFinite (D.rowIntensity r) ∧ Fl.Lt (fin 0) (D.rowIntensity r)
      · rw [if_pos (by simp [hi]), if_pos (by simp [hc, hi]), List.map_cons, ih']
        rfl
      · rw [if_neg (by simpa using hi), if_neg (by simpa [hc] using hi), ih']
    · rw [if_neg (by simp [hc]), if_neg (by simp [hc]), ih']

/-- The product of the factors that are switched on. -/
noncomputable def Spec.intensity (useS useP useL : Bool) (sf pol lor : Fl) : Fl :=
  (if useS then sf else fin 1) * (if useP then pol else fin 1) * (if useL then lor else fin 1)

theorem rowIntensity_spec (D : Detector) (row : List Fl) : D.rowIntensity row =
    Spec.intensity D.useStructureFactor D.usePolarization D.useLorentz (row.getD 5 nan) (row.getD 20 nan) (row.getD 19 nan) := by
  unfold Detector.rowIntensity Spec.intensity
  have h1 : ∀ a : Fl, a * fin 1 = a := by
    intro a; cases a with
    | fin r => rw [Fl.mul_fin, mul_one]
    | pinf => show infSign 1 = _; simp [infSign]
    | ninf => show infSign (-1) = _; simp [infSign]
    | nan => rfl
  cases D.useStructureFactor <;> cases D.usePolarization <;> cases D.useLorentz <;> simp [Fl.one_mul, h1]

/-- A row of the 25-column table with a finite scattering direction and source point. -/
def Spec.GoodRow (row : List Fl) : Prop :=
  row.length = 25 ∧ (∃ K, HasV peakColumns row "K_out_x" "K_out_y" "K_out_z" K) ∧
  ∃ S, HasV peakColumns row "Source_x" "Source_y" "Source_z" S

/-- Every table returned by `diffract` has such rows. -/
theorem diffract_good (c : Crystal) (b : Beam) (m : Motion) (d : PeaksDict) (hc : ∀ ph ∈ c.phases, ph.Consistent)
    (hd : diffractCore c b m = .ok d) : d.columns = peakColumns ∧ ∀ row ∈ d.peaks, Spec.GoodRow row := by
  refine ⟨diffract_columns hd, ?_⟩
  intro row hrow
  obtain ⟨e, i, ph, n, hkl, wt, t, idx, h1, h2, h3, rfl⟩ := mem_diffract hc hd hrow
  exact ⟨rfl, ⟨m.rotate1 (c.G0 e hkl) t + b.waveVector, ⟨⟨13, rfl, rfl⟩, ⟨14, rfl, rfl⟩, ⟨15, rfl, rfl⟩⟩⟩,
    ⟨_, ⟨⟨16, rfl, rfl⟩, ⟨17, rfl, rfl⟩, ⟨18, rfl, rfl⟩⟩⟩⟩

/-- C22: the rows kept are, in order, exactly the input rows whose ray hits the detector rectangle and whose intensity factor
(product of the enabled factors) is finite and positive; five columns are appended; every row is as long as the list of
names; the other entries of the dictionary are carried over. -/
theorem C22_intersection_keeps_valid_hits (c0 c1 c2 : V3) (np : PixArg ℤ) (ps : PixArg ℝ) (sg th : ℝ) (mr : ℤ) (fl fp fs : Bool)
    (D : Detector) (hD : Detector.new c0 c1 c2 np ps sg th mr fl fp fs = .ok D) (ho : dot (c2 - c0) (c1 - c0) = 0)
    (d : PeaksDict) (n : ℤ) (hcol : d.columns = peakColumns) (hrows : ∀ row ∈ d.peaks, Spec.GoodRow row) :
    let r := D.peaksIntersection d n
    r.columns = d.columns ++ ["zd", "yd", "incident_angle", "frame", "intensity_factors"] ∧
    (∀ row ∈ r.peaks, row.length = r.columns.length) ∧
    r.peaks.map (List.take 25) = d.peaks.filter (fun row =>
      (∃ K S u v, HasV d.columns row "K_out_x" "K_out_y" "K_out_z" K ∧ HasV d.columns row "Source_x" "Source_y" "Source_z" S ∧
        RayHitsAt c0 c1 c2 S K u v) ∧
      (∃ sf pol lor I, Has d.columns row "structure_factors" sf ∧ Has d.columns row "polarization_factors" pol ∧
        Has d.columns row "lorentz_factors" lor ∧
        Spec.intensity D.useStructureFactor D.usePolarization D.useLorentz sf pol lor = fin I ∧ 0 < I)) ∧
    r.incident = d.incident ∧ r.wavelength = d.wavelength ∧ r.rotationAxis = d.rotationAxis ∧ r.motion = d.motion ∧
    r.beam = d.beam := by
  intro r
  have hr := peaksIntersection_rows D d n (fun q hq => (hrows q hq).1)
  obtain ⟨hok, rfl, rfl, rfl, -⟩ := Detector.new_ok hD
  refine ⟨rfl, ?_, ?_, rfl, rfl, rfl, rfl, rfl⟩
  · intro row hrow
    show row.length = (d.columns ++ _).length
    rw [show r.peaks = _ from hr] at hrow
    obtain ⟨q, hq, rfl⟩ := List.mem_map.mp hrow
    have := (hrows q (List.mem_filter.mp hq).1).1
    simp [row30, rowIntersect_length, this, hcol, peakColumns]
  · rw [show r.peaks = _ from hr, List.map_map]
    have : ∀ l : List (List Fl), (∀ q ∈ l, q.length = 25) → l.map (List.take 25 ∘ row30 D n) = l := by
      intro l hl
      conv_rhs => rw [← List.map_id l]
      apply List.map_congr_left
      intro q hq
      simp only [Function.comp, row30, List.append_assoc, id]
      rw [List.take_append_of_le_length (by rw [hl q hq]), List.take_of_length_le (by rw [hl q hq])]
    rw [this _ (fun q hq => (hrows q (List.mem_filter.mp hq).1).1)]
    apply List.filter_congr
    intro row hrow
    obtain ⟨hl, ⟨K, hK⟩, ⟨S, hS⟩⟩ := hrows row hrow
    rw [hcol]
    have hKu : ∀ K', HasV peakColumns row "K_out_x" "K_out_y" "K_out_z" K' → K' = K := by
      intro K' hK'
      have h1 := ((has_iff 13 rfl).mp hK.1).symm.trans ((has_iff 13 rfl).mp hK'.1)
      have h2 := ((has_iff 14 rfl).mp hK.2.1).symm.trans ((has_iff 14 rfl).mp hK'.2.1)
      have h3 := ((has_iff 15 rfl).mp hK.2.2).symm.trans ((has_iff 15 rfl).mp hK'.2.2)
      ext
      · simpa using h1.symm
      · simpa using h2.symm
      · simpa using h3.symm
    have hSu : ∀ S', HasV peakColumns row "Source_x" "Source_y" "Source_z" S' → S' = S := by
      intro S' hS'
      have h1 := ((has_iff 16 rfl).mp hS.1).symm.trans ((has_iff 16 rfl).mp hS'.1)
      have h2 := ((has_iff 17 rfl).mp hS.2.1).symm.trans ((has_iff 17 rfl).mp hS'.2.1)
      have h3 := ((has_iff 18 rfl).mp hS.2.2).symm.trans ((has_iff 18 rfl).mp hS'.2.2)
      ext
      · simpa using h1.symm
      · simpa using h2.symm
      · simpa using h3.symm
    have hv1 : vecAt row 13 = some K := by
      unfold vecAt; rw [(has_iff 13 rfl).mp hK.1, (has_iff 14 rfl).mp hK.2.1, (has_iff 15 rfl).mp hK.2.2]
    have hv2 : vecAt row 16 = some S := by
      unfold vecAt; rw [(has_iff 16 rfl).mp hS.1, (has_iff 17 rfl).mp hS.2.1, (has_iff 18 rfl).mp hS.2.2]
    have hri : D.rowIntersect row = [(D.intersect K S).1, (D.intersect K S).2.1, (D.intersect K S).2.2] := by
      unfold Detector.rowIntersect; rw [hv1, hv2]
    refine decide_eq_decide.mpr (and_congr ?_ ?_)
    · rw [hri]
      show D.contains (D.intersect K S).1 (D.intersect K S).2.1 ↔ _
      rw [contains_iff_hit hok ho]
      constructor
      · rintro ⟨u, v, hh, -, -⟩
        exact ⟨K, S, u, v, hK, hS, hh⟩
      · rintro ⟨K', S', u, v, hK', hS', hh⟩
        rw [hKu K' hK', hSu S' hS'] at hh
        obtain ⟨a1, a2, -⟩ := C21_every_hit_is_found _ _ _ _ _ _ _ _ _ _ _ D hD ho K S u v hh
        exact ⟨u, v, hh, by rw [hok.zmax_eq]; exact a1, by rw [hok.ymax_eq]; exact a2⟩
    · rw [Fl.lt_zero_fin, rowIntensity_spec]
      have gd : ∀ j, j < 25 → row[j]? = some (row.getD j nan) := by
        intro j hj
        rw [List.getD_eq_getElem?_getD, List.getElem?_eq_getElem (by omega)]; rfl
      constructor
      · rintro ⟨I, hI, hI0⟩
        exact ⟨_, _, _, I, ⟨5, rfl, gd 5 (by norm_num)⟩, ⟨20, rfl, gd 20 (by norm_num)⟩, ⟨19, rfl, gd 19 (by norm_num)⟩, hI, hI0⟩
      · rintro ⟨sf, pol, lor, I, h5, h20, h19, hI, hI0⟩
        have k5 := (gd 5 (by norm_num)).symm.trans ((has_iff 5 rfl).mp h5)
        have k20 := (gd 20 (by norm_num)).symm.trans ((has_iff 20 rfl).mp h20)
        have k19 := (gd 19 (by norm_num)).symm.trans ((has_iff 19 rfl).mp h19)
        rw [Option.some.inj k5, Option.some.inj k20, Option.some.inj k19]
        exact ⟨I, hI, hI0⟩

/-- C22: the values in the five appended columns: the hit coordinates and incident angle of the row's own ray, the frame of
its own time, and its intensity factor. -/
theorem C22_appended_columns (D : Detector) (d : PeaksDict) (n : ℤ) (hcol : d.columns = peakColumns)
    (hrows : ∀ row ∈ d.peaks, Spec.GoodRow row) (row : List Fl) (hrow : row ∈ (D.peaksIntersection d n).peaks) :
    ∃ K S t sf pol lor, HasV d.columns row "K_out_x" "K_out_y" "K_out_z" K ∧
      HasV d.columns row "Source_x" "Source_y" "Source_z" S ∧ Has d.columns row "diffraction_times" t ∧
      Has d.columns row "structure_factors" sf ∧ Has d.columns row "polarization_factors" pol ∧
      Has d.columns row "lorentz_factors" lor ∧
      Has (D.peaksIntersection d n).columns row "zd" (D.intersect K S).1 ∧
      Has (D.peaksIntersection d n).columns row "yd" (D.intersect K S).2.1 ∧
      Has (D.peaksIntersection d n).columns row "incident_angle" (D.intersect K S).2.2 ∧
      (∀ x : ℝ, t = fin x → Has (D.peaksIntersection d n).columns row "frame" (fin (frameOf n x))) ∧
      Has (D.peaksIntersection d n).columns row "intensity_factors"
        (Spec.intensity D.useStructureFactor D.usePolarization D.useLorentz sf pol lor) := by
  rw [peaksIntersection_rows D d n (fun q hq => (hrows q hq).1)] at hrow
  obtain ⟨q, hq, rfl⟩ := List.mem_map.mp hrow
  obtain ⟨hl, ⟨K, hK⟩, ⟨S, hS⟩⟩ := hrows q (List.mem_filter.mp hq).1
  have hv1 : vecAt q 13 = some K := by
    unfold vecAt; rw [(has_iff 13 rfl).mp hK.1, (has_iff 14 rfl).mp hK.2.1, (has_iff 15 rfl).mp hK.2.2]
  have hv2 : vecAt q 16 = some S := by
    unfold vecAt; rw [(has_iff 16 rfl).mp hS.1, (has_iff 17 rfl).mp hS.2.1, (has_iff 18 rfl).mp hS.2.2]
  have hri : D.rowIntersect q = [(D.intersect K S).1, (D.intersect K S).2.1, (D.intersect K S).2.2] := by
    unfold Detector.rowIntersect; rw [hv1, hv2]
  have hcol' : (D.peaksIntersection d n).columns = peakColumns ++ ["zd", "yd", "incident_angle", "frame", "intensity_factors"] := by
    show d.columns ++ _ = _; rw [hcol]
  rw [hcol', hcol]
  have hrow30 : row30 D n q = q ++ [(D.intersect K S).1, (D.intersect K S).2.1, (D.intersect K S).2.2,
      Detector.rowFrame n q, D.rowIntensity q] := by simp [row30, hri]
  have lowh : ∀ (nm : String) (v : Fl), Has peakColumns q nm v → Has peakColumns (row30 D n q) nm v := by
    rintro nm v ⟨j, hj, hv⟩
    refine ⟨j, hj, ?_⟩
    rw [hrow30, List.getElem?_append_left (List.getElem?_eq_some_iff.mp hv).1, hv]
  have gd : ∀ j, j < 25 → q[j]? = some (q.getD j nan) := by
    intro j hj
    rw [List.getD_eq_getElem?_getD, List.getElem?_eq_getElem (by omega)]; rfl
  have hi : ∀ j : ℕ, (row30 D n q)[25 + j]? = [(D.intersect K S).1, (D.intersect K S).2.1, (D.intersect K S).2.2,
      Detector.rowFrame n q, D.rowIntensity q][j]? := by
    intro j
    rw [hrow30, List.getElem?_append_right (by omega)]
    congr 1; omega
  refine ⟨K, S, q.getD 6 nan, q.getD 5 nan, q.getD 20 nan, q.getD 19 nan, ⟨lowh _ _ hK.1, lowh _ _ hK.2.1, lowh _ _ hK.2.2⟩,
    ⟨lowh _ _ hS.1, lowh _ _ hS.2.1, lowh _ _ hS.2.2⟩, lowh _ _ ⟨6, rfl, gd 6 (by norm_num)⟩,
    lowh _ _ ⟨5, rfl, gd 5 (by norm_num)⟩, lowh _ _ ⟨20, rfl, gd 20 (by norm_num)⟩, lowh _ _ ⟨19, rfl, gd 19 (by norm_num)⟩,
    ⟨25, rfl, hi 0⟩, ⟨26, rfl, hi 1⟩, ⟨27, rfl, hi 2⟩, ?_, ⟨29, rfl, ?_⟩⟩
  · intro x hx
    refine ⟨28, rfl, ?_⟩
    rw [show (28 : ℕ) = 25 + 3 from rfl, hi 3]
    show some (Detector.rowFrame n q) = _
    unfold Detector.rowFrame; rw [hx]
  · rw [show (29 : ℕ) = 25 + 4 from rfl, hi 4, ← rowIntensity_spec]; rfl

/-- the hypotheses of C22 are met by every table that `diffract` returns -/
example (c : Crystal) (b : Beam) (m : Motion) (d : PeaksDict) (hc : ∀ ph ∈ c.phases, ph.Consistent)
    (hd : diffractCore c b m = .ok d) (row : List Fl) (hrow : row ∈ (demoDet.peaksIntersection d 3).peaks) :
    row.length = (demoDet.peaksIntersection d 3).columns.length :=
  (C22_intersection_keeps_valid_hits _ _ _ _ _ _ _ _ _ _ _ demoDet demoDet_new demoDet_orth d 3 (diffract_good c b m d hc hd).1
    (diffract_good c b m d hc hd).2).2.1 row hrow

/-! ### C37 -/

theorem cornerAngle_val {k src c : V3} (hk : k ≠ 0) (hc : c ≠ src) : Detector.cornerAngle k src c = fin (angle k (c - src)) := by
  have hg : c - src ≠ 0 := fun h => hc (sub_eq_zero.mp h)
  have hn := V3.norm_pos.mpr hg
  have hkn := V3.norm_pos.mpr hk
  obtain ⟨b1, b2⟩ := cos_bounds k (c - src)
  unfold Detector.cornerAngle
  simp only [Fl.div_fin_ne hn.ne', Fl.mul_fin, Fl.add_fin]
  have e : (c - src).x / (c - src).norm * ((1 / k.norm) • k).x + (c - src).y / (c - src).norm * ((1 / k.norm) • k).y +
      (c - src).z / (c - src).norm * ((1 / k.norm) • k).z = dot k (c - src) / (norm k * norm (c - src)) := by
    simp only [V3.dot, V3.smul_x, V3.smul_y, V3.smul_z]; field_simp
  rw [e, Fl.arccos_fin b1 b2]; rfl

theorem cornerAngle_nan {k src : V3} : Detector.cornerAngle k src src = nan := by
  have : norm (src - src) = 0 := by rw [V3.norm_eq_zero]; abel
  unfold Detector.cornerAngle
  simp only [this]
  simp [Fl.div_fin, infSign, Fl.arccos]

theorem flMax_fin (a b : ℝ) : Detector.flMax (fin a) (fin b) = fin (max a b) := by
  unfold Detector.flMax
  simp only [Fl.lt_fin]
  split_ifs with h
  · rw [max_eq_right h.le]
  · rw [max_eq_left (not_lt.mp h)]

theorem flMax_nan_left (b : Fl) : Detector.flMax nan b = nan := by cases b <;> rfl
theorem flMax_nan_right (a : Fl) : Detector.flMax a nan = nan := by cases a <;> rfl

theorem wrappingCone_val {D : Detector} {k src : V3} (hk : k ≠ 0) {w : ℝ} (h : D.wrappingCone k src = fin w) :
    (∀ c ∈ [D.c0, D.c1, D.c2, D.c2 + (D.c1 - D.c0)], c ≠ src ∧ angle k (c - src) ≤ 2 * w) ∧
    2 * w ∈ [angle k (D.c0 - src), angle k (D.c1 - src), angle k (D.c2 - src), angle k (D.c2 + (D.c1 - D.c0) - src)] := by
  have hne : ∀ c ∈ [D.c0, D.c1, D.c2, D.c2 + (D.c1 - D.c0)], c ≠ src := by
    intro c hc he
    have hnan : D.wrappingCone k src = nan := by
      unfold Detector.wrappingCone
      simp only [List.mem_cons, List.not_mem_nil, or_false] at hc
      rcases hc with hc | hc | hc | hc <;>
      · rw [hc] at he
        simp only [he, cornerAngle_nan, flMax_nan_left, flMax_nan_right, Fl.nan_div]
    rw [hnan] at h; cases h
  have e0 := cornerAngle_val hk (hne D.c0 (by simp))
  have e1 := cornerAngle_val hk (hne D.c1 (by simp))
  have e2 := cornerAngle_val hk (hne D.c2 (by simp))
  have e3 := cornerAngle_val hk (hne (D.c2 + (D.c1 - D.c0)) (by simp))
  unfold Detector.wrappingCone at h
  simp only [e0, e1, e2, e3, flMax_fin, Fl.div_fin_ne (two_ne_zero' ℝ)] at h
  have hw := Fl.fin.inj h
  set A0 := angle k (D.c0 - src)
  set A1 := angle k (D.c1 - src)
  set A2 := angle k (D.c2 - src)
  set A3 := angle k (D.c2 + (D.c1 - D.c0) - src)
  have hm : 2 * w = max (max (max A0 A1) A2) A3 := by rw [← hw]; ring
  constructor
  · intro c hc
    refine ⟨hne c hc, ?_⟩
    rw [hm]
    simp only [List.mem_cons, List.not_mem_nil, or_false] at hc
    rcases hc with rfl | rfl | rfl | rfl
    · exact (le_max_left _ _).trans ((le_max_left _ _).trans (le_max_left _ _))
    · exact (le_max_right _ _).trans ((le_max_left _ _).trans (le_max_left _ _))
    · exact (le_max_right _ _).trans (le_max_left _ _)
    · exact le_max_right _ _
  · rw [hm]
    simp only [List.mem_cons, List.not_mem_nil, or_false]
    rcases max_choice (max (max A0 A1) A2) A3 with h1 | h1 <;> rw [h1]
    · rcases max_choice (max A0 A1) A2 with h2 | h2 <;> rw [h2]
      · rcases max_choice A0 A1 with h3 | h3 <;> rw [h3] <;> simp
      · simp
    · simp

theorem le_dot_of_angle {k g : V3} (hk : k ≠ 0) {α : ℝ} (h0 : 0 ≤ α) (h1 : α ≤ Real.pi) (h : angle k g ≤ α) :
    Real.cos α * (norm k * norm g) ≤ dot k g := by
  by_cases hg : g = 0
  · subst hg
    have : norm (0 : V3) = 0 := V3.norm_eq_zero.mpr rfl
    rw [this]; simp [V3.dot]
  have hp : 0 < norm k * norm g := mul_pos (V3.norm_pos.mpr hk) (V3.norm_pos.mpr hg)
  obtain ⟨b1, b2⟩ := cos_bounds k g
  have : Real.cos α ≤ Real.cos (angle k g) := Real.cos_le_cos_of_nonneg_of_le_pi (Real.arccos_nonneg _) h1 h
  unfold angle at this
  rw [Real.cos_arccos b1 b2, le_div_iff₀ hp] at this
  exact this

theorem angle_le_of_dot {k g : V3} (hk : k ≠ 0) (hg : g ≠ 0) {α : ℝ} (h0 : 0 ≤ α) (h1 : α ≤ Real.pi)
    (h : Real.cos α * (norm k * norm g) ≤ dot k g) : angle k g ≤ α := by
  have hp : 0 < norm k * norm g := mul_pos (V3.norm_pos.mpr hk) (V3.norm_pos.mpr hg)
  unfold angle
  rw [← Real.arccos_cos h0 h1]
  apply Real.arccos_le_arccos
  rw [le_div_iff₀ hp]; exact h

/-- C37 (partial): when the wrapping cone bound is at most `45°` (every detector corner is seen within `90°` of the wave
vector), every point of the detector is seen within twice the bound.  Missing for the full property: larger cones, for
which it is false, see `C37_wrapping_cone_fails`. -/
theorem C37_wrapping_cone_partial (c0 c1 c2 : V3) (np : PixArg ℤ) (ps : PixArg ℝ) (sg th : ℝ) (mr : ℤ) (fl fp fs : Bool)
    (D : Detector) (hD : Detector.new c0 c1 c2 np ps sg th mr fl fp fs = .ok D) (k src : V3) (hk : k ≠ 0) (w : ℝ)
    (hw : D.wrappingCone k src = fin w) (hle : w ≤ Real.pi / 4) (u v : ℝ) (hu0 : 0 ≤ u) (hu1 : u ≤ 1) (hv0 : 0 ≤ v) (hv1 : v ≤ 1)
    (p : V3) (hp : p = c0 + u • (c2 - c0) + v • (c1 - c0)) (hps : p ≠ src) : angle k (p - src) ≤ 2 * w := by
  obtain ⟨hok, rfl, rfl, rfl, -⟩ := Detector.new_ok hD
  obtain ⟨hall, -⟩ := wrappingCone_val hk hw
  have hw0 : 0 ≤ 2 * w := (Real.arccos_nonneg _).trans (hall D.c0 (by simp)).2
  have hpi := Real.pi_pos
  have hw1 : 2 * w ≤ Real.pi := by linarith
  have hcos : 0 ≤ Real.cos (2 * w) := Real.cos_nonneg_of_mem_Icc ⟨by linarith, by linarith⟩
  have d0 := le_dot_of_angle hk hw0 hw1 (hall D.c0 (by simp)).2
  have d1 := le_dot_of_angle hk hw0 hw1 (hall D.c1 (by simp)).2
  have d2 := le_dot_of_angle hk hw0 hw1 (hall D.c2 (by simp)).2
  have d3 := le_dot_of_angle hk hw0 hw1 (hall (D.c2 + (D.c1 - D.c0)) (by simp)).2
  have hg : p - src ≠ 0 := fun h => hps (sub_eq_zero.mp h)
  apply angle_le_of_dot hk hg hw0 hw1
  set g0 := D.c0 - src
  set g1 := D.c1 - src
  set g2 := D.c2 - src
  set g3 := D.c2 + (D.c1 - D.c0) - src
  have hpe : p - src = ((1 - u) * (1 - v)) • g0 + ((1 - u) * v) • g1 + (u * (1 - v)) • g2 + (u * v) • g3 := by
    rw [hp]
    ext <;> simp only [V3.add_x, V3.add_y, V3.add_z, V3.sub_x, V3.sub_y, V3.sub_z, V3.smul_x, V3.smul_y, V3.smul_z, g0, g1, g2, g3] <;> ring
  have l0 : 0 ≤ (1 - u) * (1 - v) := mul_nonneg (by linarith) (by linarith)
  have l1 : 0 ≤ (1 - u) * v := mul_nonneg (by linarith) (by linarith)
  have l2 : 0 ≤ u * (1 - v) := mul_nonneg (by linarith) (by linarith)
  have l3 : 0 ≤ u * v := mul_nonneg (by linarith) (by linarith)
  have hnorm : norm (p - src) ≤ ((1 - u) * (1 - v)) * norm g0 + ((1 - u) * v) * norm g1 + (u * (1 - v)) * norm g2 + (u * v) * norm g3 := by
    rw [hpe]
    refine (V3.norm_add_le _ _).trans ?_
    rw [V3.norm_smul (u * v), abs_of_nonneg l3]
    gcongr
    refine (V3.norm_add_le _ _).trans ?_
    rw [V3.norm_smul (u * (1 - v)), abs_of_nonneg l2]
    gcongr
    refine (V3.norm_add_le _ _).trans ?_
    rw [V3.norm_smul, V3.norm_smul, abs_of_nonneg l0, abs_of_nonneg l1]
  have hdot : dot k (p - src) = ((1 - u) * (1 - v)) * dot k g0 + ((1 - u) * v) * dot k g1 + (u * (1 - v)) * dot k g2 + (u * v) * dot k g3 := by
    rw [hpe, dot_add_right, dot_add_right, dot_add_right, dot_smul_right, dot_smul_right, dot_smul_right, dot_smul_right]
  rw [hdot]
  have hkn := V3.norm_nonneg k
  calc Real.cos (2 * w) * (norm k * norm (p - src))
      ≤ Real.cos (2 * w) * (norm k * (((1 - u) * (1 - v)) * norm g0 + ((1 - u) * v) * norm g1 + (u * (1 - v)) * norm g2 + (u * v) * norm g3)) := by
        gcongr
    _ = ((1 - u) * (1 - v)) * (Real.cos (2 * w) * (norm k * norm g0)) + ((1 - u) * v) * (Real.cos (2 * w) * (norm k * norm g1))
        + (u * (1 - v)) * (Real.cos (2 * w) * (norm k * norm g2)) + (u * v) * (Real.cos (2 * w) * (norm k * norm g3)) := by ring
    _ ≤ _ := by
        have := mul_le_mul_of_nonneg_left d0 l0
        have := mul_le_mul_of_nonneg_left d1 l1
        have := mul_le_mul_of_nonneg_left d2 l2
        have := mul_le_mul_of_nonneg_left d3 l3
        linarith

/-- an existing bound when no corner coincides with the source -/
theorem wrappingCone_exists {D : Detector} {k src : V3} (hk : k ≠ 0)
    (hne : ∀ c ∈ [D.c0, D.c1, D.c2, D.c2 + (D.c1 - D.c0)], c ≠ src) : ∃ w, D.wrappingCone k src = fin w := by
  have e0 := cornerAngle_val hk (hne D.c0 (by simp))
  have e1 := cornerAngle_val hk (hne D.c1 (by simp))
  have e2 := cornerAngle_val hk (hne D.c2 (by simp))
  have e3 := cornerAngle_val hk (hne (D.c2 + (D.c1 - D.c0)) (by simp))
  unfold Detector.wrappingCone
  simp only [e0, e1, e2, e3, flMax_fin, Fl.div_fin_ne (two_ne_zero' ℝ)]
  exact ⟨_, rfl⟩

theorem ex_ne_zero : (⟨1, 0, 0⟩ : V3) ≠ 0 := by intro h; have := congrArg V3.x h; simp at this

/-- a forward detector meeting the hypotheses of C37 -/
example : ∃ w, demoDet.wrappingCone ⟨1, 0, 0⟩ ⟨0, 1/2, 1/2⟩ = fin w ∧ w ≤ Real.pi / 4 ∧
    angle ⟨1, 0, 0⟩ ((⟨1, 0, 0⟩ : V3) + (1/2 : ℝ) • (⟨1, 0, 1⟩ - ⟨1, 0, 0⟩) + (1/4 : ℝ) • (⟨1, 1, 0⟩ - ⟨1, 0, 0⟩) - ⟨0, 1/2, 1/2⟩) ≤ 2 * w := by
  have hne : ∀ c ∈ [demoDet.c0, demoDet.c1, demoDet.c2, demoDet.c2 + (demoDet.c1 - demoDet.c0)], c ≠ (⟨0, 1/2, 1/2⟩ : V3) := by
    intro c hc h
    simp only [List.mem_cons, List.not_mem_nil, or_false] at hc
    rcases hc with rfl | rfl | rfl | rfl <;> have := congrArg V3.x h <;> simp [demoDet] at this
  obtain ⟨w, hw⟩ := wrappingCone_exists ex_ne_zero hne
  have hle : w ≤ Real.pi / 4 := by
    have h2 := (wrappingCone_val ex_ne_zero hw).2
    have key : ∀ g : V3, 0 ≤ g.x → angle ⟨1, 0, 0⟩ g ≤ Real.pi / 2 := by
      intro g hg
      unfold angle
      rw [Real.arccos_le_pi_div_two]
      have : dot ⟨1, 0, 0⟩ g = g.x := by simp [V3.dot]
      rw [this]
      exact div_nonneg hg (mul_nonneg (V3.norm_nonneg _) (V3.norm_nonneg _))
    simp only [List.mem_cons, List.not_mem_nil, or_false] at h2
    have : 2 * w ≤ Real.pi / 2 := by
      rcases h2 with h2 | h2 | h2 | h2 <;> rw [h2] <;> apply key <;> simp [demoDet]
    linarith
  exact ⟨w, hw, hle, C37_wrapping_cone_partial _ _ _ _ _ _ _ _ _ _ _ demoDet demoDet_new _ _ ex_ne_zero w hw hle (1/2) (1/4)
    (by norm_num) (by norm_num) (by norm_num) (by norm_num) _ rfl (by intro h; have := congrArg V3.x h; simp at this)⟩

/-- a detector behind the sample -/
noncomputable def backDet : Detector :=
  ⟨⟨-1, -1, -1⟩, ⟨-1, 1, -1⟩, ⟨-1, -1, 1⟩, 2, 2, 1, 1, ⟨0, 0, 1⟩, ⟨0, 1, 0⟩, ⟨-1, 0, 0⟩, 1, 1/50, 2, true, true, true⟩

theorem backDet_new : Detector.new ⟨-1, -1, -1⟩ ⟨-1, 1, -1⟩ ⟨-1, -1, 1⟩ .absent (.both 1) 1 (1/50) 2 true true true = .ok backDet := by
  have e1 : ((⟨-1, -1, 1⟩ : V3) - ⟨-1, -1, -1⟩) = ⟨0, 0, 2⟩ := by ext <;> simp; norm_num
  have e2 : ((⟨-1, 1, -1⟩ : V3) - ⟨-1, -1, -1⟩) = ⟨0, 2, 0⟩ := by ext <;> simp; norm_num
  have n1 : norm (⟨0, 0, 2⟩ : V3) = 2 := by
    unfold V3.norm; rw [show nsq (⟨0, 0, 2⟩ : V3) = 2 ^ 2 by norm_num [nsq, V3.dot]]; exact Real.sqrt_sq (by norm_num)
  have n2 : norm (⟨0, 2, 0⟩ : V3) = 2 := by
    unfold V3.norm; rw [show nsq (⟨0, 2, 0⟩ : V3) = 2 ^ 2 by norm_num [nsq, V3.dot]]; exact Real.sqrt_sq (by norm_num)
  have n3 : norm (⟨-1, 0, 0⟩ : V3) = 1 := by rw [norm_eq_one]; simp [nsq, V3.dot]
  have s1 : ∀ v : V3, (1 / (1:ℝ)) • v = v := by intro v; ext <;> simp
  have s2 : (1 / (2:ℝ)) • (⟨0, 0, 2⟩ : V3) = ⟨0, 0, 1⟩ := by ext <;> simp
  have s3 : (1 / (2:ℝ)) • (⟨0, 2, 0⟩ : V3) = ⟨0, 1, 0⟩ := by ext <;> simp
  have c : cross (⟨0, 0, 1⟩ : V3) ⟨0, 1, 0⟩ = ⟨-1, 0, 0⟩ := by ext <;> simp [V3.cross]
  have c0 : (⟨-1, 0, 0⟩ : V3) ≠ 0 := by intro h; have := congrArg V3.x h; simp at this
  unfold Detector.new
  simp only [e1, e2, n1, n2, s2, s3, c, n3, s1, pixelSizes, if_neg c0]
  rw [if_neg (by norm_num)]
  rfl

/-- C37 fails as stated: for a detector behind the sample the centre is seen at `180°`, outside the cone of the corners. -/
theorem C37_wrapping_cone_fails : ∃ (D : Detector) (k src p : V3) (u v w : ℝ),
    Detector.new D.c0 D.c1 D.c2 .absent (.both 1) 1 (1/50) 2 true true true = .ok D ∧ k ≠ 0 ∧
    D.wrappingCone k src = fin w ∧ 0 ≤ u ∧ u ≤ 1 ∧ 0 ≤ v ∧ v ≤ 1 ∧ p = D.c0 + u • (D.c2 - D.c0) + v • (D.c1 - D.c0) ∧
    p ≠ src ∧ 2 * w < angle k (p - src) := by
  have hne : ∀ c ∈ [backDet.c0, backDet.c1, backDet.c2, backDet.c2 + (backDet.c1 - backDet.c0)], c ≠ (0 : V3) := by
    intro c hc h
    simp only [List.mem_cons, List.not_mem_nil, or_false] at hc
    rcases hc with rfl | rfl | rfl | rfl <;> have := congrArg V3.x h <;> simp [backDet] at this
  obtain ⟨w, hw⟩ := wrappingCone_exists ex_ne_zero hne
  refine ⟨backDet, ⟨1, 0, 0⟩, 0, ⟨-1, 0, 0⟩, 1/2, 1/2, w, backDet_new, ex_ne_zero, hw, by norm_num, by norm_num, by norm_num,
    by norm_num, ?_, ?_, ?_⟩
  · ext <;> simp [backDet] <;> norm_num
  · intro h; have := congrArg V3.x h; simp at this
  · have hx : norm (⟨1, 0, 0⟩ : V3) = 1 := by rw [norm_eq_one]; simp [nsq, V3.dot]
    have hc : angle ⟨1, 0, 0⟩ ((⟨-1, 0, 0⟩ : V3) - 0) = Real.pi := by
      have : (⟨-1, 0, 0⟩ : V3) - 0 = ⟨-1, 0, 0⟩ := by ext <;> simp
      rw [this]
      have hx' : norm (⟨-1, 0, 0⟩ : V3) = 1 := by rw [norm_eq_one]; simp [nsq, V3.dot]
      unfold angle; rw [hx, hx']; simp [V3.dot]
    rw [hc]
    have h2 := (wrappingCone_val ex_ne_zero hw).2
    have key : ∀ g : V3, nsq g = 3 → g.x = -1 → angle ⟨1, 0, 0⟩ g < Real.pi := by
      intro g hg hgx
      unfold angle
      have h1 : norm g = Real.sqrt 3 := by unfold V3.norm; rw [hg]
      have h3 : (1:ℝ) < Real.sqrt 3 := by rw [Real.lt_sqrt (by norm_num)]; norm_num
      refine lt_of_le_of_ne (Real.arccos_le_pi _) ?_
      rw [Ne, Real.arccos_eq_pi]
      have : dot ⟨1, 0, 0⟩ g = -1 := by simp [V3.dot, hgx]
      rw [this, hx, h1, _root_.one_mul, not_le, lt_div_iff₀ (by linarith)]
      linarith
    simp only [List.mem_cons, List.not_mem_nil, or_false] at h2
    rcases h2 with h2 | h2 | h2 | h2 <;> rw [h2] <;> apply key <;> simp [backDet, nsq, V3.dot] <;> norm_num

/-! ### C34 -/

theorem minL_le {a : ℝ} {l : List ℝ} : Detector.minL a l ≤ a ∧ ∀ x ∈ l, Detector.minL a l ≤ x := by
  unfold Detector.minL
  induction l generalizing a with
  | nil => simp
  | cons b l ih =>
    simp only [List.foldl_cons]
    obtain ⟨h1, h2⟩ := ih (a := min a b)
    refine ⟨h1.trans (min_le_left _ _), ?_⟩
    intro x hx
    rcases List.mem_cons.mp hx with rfl | hx
    · exact h1.trans (min_le_right _ _)
    · exact h2 x hx

theorem le_maxL {a : ℝ} {l : List ℝ} : a ≤ Detector.maxL a l ∧ ∀ x ∈ l, x ≤ Detector.maxL a l := by
  unfold Detector.maxL
  induction l generalizing a with
  | nil => simp
  | cons b l ih =>
    simp only [List.foldl_cons]
    obtain ⟨h1, h2⟩ := ih (a := max a b)
    refine ⟨(le_max_left _ _).trans h1, ?_⟩
    intro x hx
    rcases List.mem_cons.mp hx with rfl | hx
    · exact (le_max_right _ _).trans h1
    · exact h2 x hx

theorem mem_finites {l : List Fl} {x : ℝ} : x ∈ Detector.finites l ↔ fin x ∈ l := by
  induction l with
  | nil => simp [Detector.finites]
  | cons a l ih =>
    cases a <;> simp [Detector.finites, ih]

theorem pyInt_nonneg {x : ℝ} (h : 0 ≤ x) : Detector.pyInt x = ⌊x⌋ := by unfold Detector.pyInt; rw [if_pos h]

/-- C34: the box is inside the frame, and every projected vertex on the detector's whole pixels has its pixel in the box. -/
theorem C34_bounding_box (c0 c1 c2 : V3) (np : PixArg ℤ) (ps : PixArg ℝ) (sg th : ℝ) (mr : ℤ) (fl fp fs : Bool)
    (D : Detector) (hD : Detector.new c0 c1 c2 np ps sg th mr fl fp fs = .ok D) (vertices : List V3) (k : V3)
    (r0 r1 q0 q1 : ℤ) (hb : D.boundingBox vertices k = some (r0, r1, q0, q1)) :
    0 ≤ r0 ∧ r1 ≤ D.nz ∧ 0 ≤ q0 ∧ q1 ≤ D.ny ∧
    ∀ vtx ∈ vertices, ∀ zd yd : ℝ, (D.intersect k vtx).1 = fin zd → (D.intersect k vtx).2.1 = fin yd →
      0 ≤ zd → zd < D.pz * ⌊D.zmax / D.pz⌋ → 0 ≤ yd → yd < D.py * ⌊D.ymax / D.py⌋ →
      r0 ≤ ⌊zd / D.pz⌋ ∧ ⌊zd / D.pz⌋ < r1 ∧ q0 ≤ ⌊yd / D.py⌋ ∧ ⌊yd / D.py⌋ < q1 := by
  obtain ⟨hok, -⟩ := Detector.new_ok hD
  have hz := hok.zpos; have hy := hok.ypos; have hpz := hok.pz; have hpy := hok.py
  unfold Detector.boundingBox at hb
  simp only at hb
  split at hb
  · rename_i z zs y ys hzs hys
    split_ifs at hb with hcond
    push Not at hcond
    simp only [Detector.pixelIndex, Option.some.injEq, Prod.mk.injEq] at hb
    obtain ⟨rfl, rfl, rfl, rfl⟩ := hb
    have n1 : 0 ≤ max (Detector.minL z zs) 0 / D.pz := by positivity
    have n2 : 0 ≤ max (Detector.minL y ys) 0 / D.py := by positivity
    have m1 : 0 ≤ min (Detector.maxL z zs) D.zmax / D.pz := div_nonneg ((le_max_right _ _).trans hcond.1) hpz.le
    have m2 : 0 ≤ min (Detector.maxL y ys) D.ymax / D.py := div_nonneg ((le_max_right _ _).trans hcond.2) hpy.le
    rw [pyInt_nonneg n1, pyInt_nonneg n2, pyInt_nonneg m1, pyInt_nonneg m2, pyInt_nonneg (by positivity : 0 ≤ D.zmax / D.pz),
      pyInt_nonneg (by positivity : 0 ≤ D.ymax / D.py)]
    have fz : ⌊D.zmax / D.pz⌋ ≤ (D.nz : ℤ) := by
      unfold Detector.nz
      rw [Int.natCast_ceil_eq_ceil (by positivity)]; exact Int.floor_le_ceil _
    have fy : ⌊D.ymax / D.py⌋ ≤ (D.ny : ℤ) := by
      unfold Detector.ny
      rw [Int.natCast_ceil_eq_ceil (by positivity)]; exact Int.floor_le_ceil _
    refine ⟨Int.floor_nonneg.mpr n1, (min_le_right _ _).trans fz, Int.floor_nonneg.mpr n2, (min_le_right _ _).trans fy, ?_⟩
    intro vtx hvtx zd yd hzd hyd hz0 hz1 hy0 hy1
    have hmz : zd ∈ z :: zs := by
      rw [← hzs, mem_finites]
      refine List.mem_map.mpr ⟨D.intersect k vtx, List.mem_map.mpr ⟨vtx, hvtx, rfl⟩, hzd⟩
    have hmy : yd ∈ y :: ys := by
      rw [← hys, mem_finites]
      refine List.mem_map.mpr ⟨D.intersect k vtx, List.mem_map.mpr ⟨vtx, hvtx, rfl⟩, hyd⟩
    have lz : Detector.minL z zs ≤ zd := by
      rcases List.mem_cons.mp hmz with rfl | h
      · exact minL_le.1
      · exact minL_le.2 _ h
    have uz : zd ≤ Detector.maxL z zs := by
      rcases List.mem_cons.mp hmz with rfl | h
      · exact le_maxL.1
      · exact le_maxL.2 _ h
    have ly : Detector.minL y ys ≤ yd := by
      rcases List.mem_cons.mp hmy with rfl | h
      · exact minL_le.1
      · exact minL_le.2 _ h
    have uy : yd ≤ Detector.maxL y ys := by
      rcases List.mem_cons.mp hmy with rfl | h
      · exact le_maxL.1
      · exact le_maxL.2 _ h
    have tz : ⌊zd / D.pz⌋ < ⌊D.zmax / D.pz⌋ := by
      apply Int.floor_lt.mpr
      rw [div_lt_iff₀ hpz]; linarith
    have ty : ⌊yd / D.py⌋ < ⌊D.ymax / D.py⌋ := by
      apply Int.floor_lt.mpr
      rw [div_lt_iff₀ hpy]; linarith
    have zle : zd ≤ D.zmax := by
      have := Int.floor_le (D.zmax / D.pz)
      rw [le_div_iff₀ hpz] at this; linarith
    have yle : yd ≤ D.ymax := by
      have := Int.floor_le (D.ymax / D.py)
      rw [le_div_iff₀ hpy] at this; linarith
    refine ⟨Int.floor_le_floor (by gcongr; exact max_le lz hz0), lt_min ?_ tz, Int.floor_le_floor (by gcongr; exact max_le ly hy0), lt_min ?_ ty⟩
    · have : ⌊zd / D.pz⌋ ≤ ⌊min (Detector.maxL z zs) D.zmax / D.pz⌋ := Int.floor_le_floor (by gcongr; exact le_min uz zle)
      omega
    · have : ⌊yd / D.py⌋ ≤ ⌊min (Detector.maxL y ys) D.ymax / D.py⌋ := Int.floor_le_floor (by gcongr; exact le_min uy yle)
      omega
  · cases hb

/-- C34: no box is returned only if no projected vertex falls on the detector. -/
theorem C34_no_box_no_vertex (D : Detector) (vertices : List V3) (k : V3) (hb : D.boundingBox vertices k = none)
    (vtx : V3) (hv : vtx ∈ vertices) : ¬ D.contains (D.intersect k vtx).1 (D.intersect k vtx).2.1 := by
  rintro ⟨h1, h2, h3, h4⟩
  obtain ⟨zd, hzd⟩ := Fl.isFinite_iff.mp (Fl.isFinite_of_between h1 h2)
  obtain ⟨yd, hyd⟩ := Fl.isFinite_iff.mp (Fl.isFinite_of_between h3 h4)
  rw [hzd] at h1 h2; rw [hyd] at h3 h4
  simp only [Fl.le_fin] at h1 h2 h3 h4
  have hmz : zd ∈ Detector.finites ((vertices.map fun v => D.intersect k v).map (·.1)) := by
    rw [mem_finites]; exact List.mem_map.mpr ⟨D.intersect k vtx, List.mem_map.mpr ⟨vtx, hv, rfl⟩, hzd⟩
  have hmy : yd ∈ Detector.finites ((vertices.map fun v => D.intersect k v).map (·.2.1)) := by
    rw [mem_finites]; exact List.mem_map.mpr ⟨D.intersect k vtx, List.mem_map.mpr ⟨vtx, hv, rfl⟩, hyd⟩
  unfold Detector.boundingBox at hb
  simp only at hb
  split at hb
  · rename_i z zs y ys hzs hys
    rw [hzs] at hmz; rw [hys] at hmy
    split_ifs at hb with hcond
    have lz : Detector.minL z zs ≤ zd := by
      rcases List.mem_cons.mp hmz with rfl | h
      · exact minL_le.1
      · exact minL_le.2 _ h
    have uz : zd ≤ Detector.maxL z zs := by
      rcases List.mem_cons.mp hmz with rfl | h
      · exact le_maxL.1
      · exact le_maxL.2 _ h
    have ly : Detector.minL y ys ≤ yd := by
      rcases List.mem_cons.mp hmy with rfl | h
      · exact minL_le.1
      · exact minL_le.2 _ h
    have uy : yd ≤ Detector.maxL y ys := by
      rcases List.mem_cons.mp hmy with rfl | h
      · exact le_maxL.1
      · exact le_maxL.2 _ h
    have a1 : max (Detector.minL z zs) 0 ≤ zd := max_le lz h1
    have a2 : zd ≤ min (Detector.maxL z zs) D.zmax := le_min uz h2
    have a3 : max (Detector.minL y ys) 0 ≤ yd := max_le ly h3
    have a4 : yd ≤ min (Detector.maxL y ys) D.ymax := le_min uy h4
    rcases hcond with h | h <;> linarith
  · rename_i hnot
    obtain ⟨z, zs, hzs⟩ := List.exists_cons_of_ne_nil (List.ne_nil_of_mem hmz)
    obtain ⟨y, ys, hys⟩ := List.exists_cons_of_ne_nil (List.ne_nil_of_mem hmy)
    exact hnot z zs y ys hzs hys

/-- a vertex projected on the lower left pixel of the demo detector: a box exists and covers it -/
example : ∃ r0 r1 q0 q1, demoDet.boundingBox [⟨0, 1/4, 1/4⟩] ⟨1, 0, 0⟩ = some (r0, r1, q0, q1) := by
  have hh : RayHitsAt (⟨1, 0, 0⟩ : V3) ⟨1, 1, 0⟩ ⟨1, 0, 1⟩ ⟨0, 1/4, 1/4⟩ ⟨1, 0, 0⟩ (1/4) (1/4) :=
    ⟨by simp [V3.dot, V3.cross], by norm_num, by norm_num, by norm_num, by norm_num, 1, by norm_num, by ext <;> simp⟩
  have hc := (C21_every_hit_is_found _ _ _ _ _ _ _ _ _ _ _ demoDet demoDet_new demoDet_orth ⟨1, 0, 0⟩ ⟨0, 1/4, 1/4⟩ _ _ hh).2.2
  cases hb : demoDet.boundingBox [⟨0, 1/4, 1/4⟩] ⟨1, 0, 0⟩ with
  | none => exact absurd hc (C34_no_box_no_vertex demoDet _ _ hb _ (by simp))
  | some b => exact ⟨_, _, _, _, rfl⟩

end XRD
