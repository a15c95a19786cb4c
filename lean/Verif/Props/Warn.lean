import Verif.Model.Warn
import Verif.Props.Snapshot
import Verif.Props.Detector2

/-! Property C106: the warning about discarded hits. -/

namespace XRD
open V3 M3 Fl Spec
open scoped Classical

/-- The scattered ray of the row meets the detector rectangle with corners `c0`, `c1`, `c2`. -/
def Spec.OnDetector (c0 c1 c2 : V3) (columns : List String) (row : List Fl) : Prop :=
  ∃ K S u v, HasV columns row "K_out_x" "K_out_y" "K_out_z" K ∧ HasV columns row "Source_x" "Source_y" "Source_z" S ∧
    RayHitsAt c0 c1 c2 S K u v

/-- The product of the factors of the row that are switched on is `I`. -/
def Spec.RowIntensity (useS useP useL : Bool) (columns : List String) (row : List Fl) (I : Fl) : Prop :=
  ∃ sf pol lor, Has columns row "structure_factors" sf ∧ Has columns row "polarization_factors" pol ∧
    Has columns row "lorentz_factors" lor ∧ I = Spec.intensity useS useP useL sf pol lor

/-- What each reason says about the intensity of a row. -/
def Spec.Because : SkipReason → Fl → Prop
  | .infiniteLorentz, I => I = pinf ∨ I = ninf
  | .nonPositive, I => ∃ r : ℝ, I = fin r ∧ r ≤ 0
  | .nan, I => I = Fl.nan

theorem onDetector_iff {c0 c1 c2 : V3} {np : PixArg ℤ} {ps : PixArg ℝ} {sg th : ℝ} {mr : ℤ} {fl fp fs : Bool}
    {D : Detector} (hD : Detector.new c0 c1 c2 np ps sg th mr fl fp fs = .ok D) (ho : dot (c2 - c0) (c1 - c0) = 0)
    {row : List Fl} (hg : Spec.GoodRow row) :
    D.contains ((D.rowIntersect row).getD 0 Fl.nan) ((D.rowIntersect row).getD 1 Fl.nan) ↔ Spec.OnDetector c0 c1 c2 peakColumns row := by
  obtain ⟨hok, rfl, rfl, rfl, -⟩ := Detector.new_ok hD
  obtain ⟨hl, ⟨K, hK⟩, ⟨S, hS⟩⟩ := hg
  have hKu : ∀ K', HasV peakColumns row "K_out_x" "K_out_y" "K_out_z" K' → K' = K := by
    intro K' hK'
    have h1 := ((has_iff 13 rfl).mp hK.1).symm.trans ((has_iff 13 rfl).mp hK'.1)
    have h2 := ((has_iff 14 rfl).mp hK.2.1).symm.trans ((has_iff 14 rfl).mp hK'.2.1)
    have h3 := ((has_iff 15 rfl).mp hK.2.2).symm.trans ((has_iff 15 rfl).mp hK'.2.2)
    ext
    · simpa using h1.symm
    · simpa using h2.symm
    · simpa using h3.symm
  have hSu : ∀ S', HasV peakColumns row "Source_x" "Source_y" "Source_z" S' → S' = S := by
    intro S' hS'
    have h1 := ((has_iff 16 rfl).mp hS.1).symm.trans ((has_iff 16 rfl).mp hS'.1)
    have h2 := ((has_iff 17 rfl).mp hS.2.1).symm.trans ((has_iff 17 rfl).mp hS'.2.1)
    have h3 := ((has_iff 18 rfl).mp hS.2.2).symm.trans ((has_iff 18 rfl).mp hS'.2.2)
    ext
    · simpa using h1.symm
    · simpa using h2.symm
    · simpa using h3.symm
  have hv1 : vecAt row 13 = some K := by
    unfold vecAt; rw [(has_iff 13 rfl).mp hK.1, (has_iff 14 rfl).mp hK.2.1, (has_iff 15 rfl).mp hK.2.2]
  have hv2 : vecAt row 16 = some S := by
    unfold vecAt; rw [(has_iff 16 rfl).mp hS.1, (has_iff 17 rfl).mp hS.2.1, (has_iff 18 rfl).mp hS.2.2]
  have hri : D.rowIntersect row = [(D.intersect K S).1, (D.intersect K S).2.1, (D.intersect K S).2.2] := by
    unfold Detector.rowIntersect; rw [hv1, hv2]
  rw [hri]
  show D.contains (D.intersect K S).1 (D.intersect K S).2.1 ↔ _
  rw [contains_iff_hit hok ho]
  constructor
  · rintro ⟨u, v, hh, -, -⟩
    exact ⟨K, S, u, v, hK, hS, hh⟩
  · rintro ⟨K', S', u, v, hK', hS', hh⟩
    rw [hKu K' hK', hSu S' hS'] at hh
    obtain ⟨a1, a2, -⟩ := C21_every_hit_is_found _ _ _ _ _ _ _ _ _ _ _ D hD ho K S u v hh
    exact ⟨u, v, hh, by rw [hok.zmax_eq]; exact a1, by rw [hok.ymax_eq]; exact a2⟩

theorem hitIntensities_eq (D : Detector) (d : PeaksDict) (n : ℤ) (hlen : ∀ r ∈ d.peaks, r.length = 25) :
    D.hitIntensities d n = (d.peaks.filter fun row =>
      D.contains ((D.rowIntersect row).getD 0 Fl.nan) ((D.rowIntersect row).getD 1 Fl.nan)).map D.rowIntensity := by
  unfold Detector.hitIntensities
  simp only
  generalize d.peaks = l at hlen
  induction l with
  | nil => rfl
  | cons r l ih =>
    have ih' := ih (fun q hq => hlen q (List.mem_cons_of_mem _ hq))
    obtain ⟨a0, a1, a2, a3, a4, a5, a6, a7, a8, a9, a10, a11, a12, a13, a14, a15, a16, a17, a18, a19, a20, a21, a22, a23, a24, rfl⟩ :=
      len25 (hlen r List.mem_cons_self)
    set r := [a0, a1, a2, a3, a4, a5, a6, a7, a8, a9, a10, a11, a12, a13, a14, a15, a16, a17, a18, a19, a20, a21, a22, a23, a24] with hr
    obtain ⟨z, y, w, hz⟩ : ∃ z y w, D.rowIntersect r = [z, y, w] := by
      match D.rowIntersect r, rowIntersect_length D r with
      | [z, y, w], _ => exact ⟨z, y, w, rfl⟩
    have e25 : (r ++ D.rowIntersect r).getD 25 Fl.nan = z := by rw [hz]; rfl
    have e26 : (r ++ D.rowIntersect r).getD 26 Fl.nan = y := by rw [hz]; rfl
    have e29 : (r ++ D.rowIntersect r ++ [Detector.rowFrame n (r ++ D.rowIntersect r)] ++
        [D.rowIntensity (r ++ D.rowIntersect r ++ [Detector.rowFrame n (r ++ D.rowIntersect r)])]).getD 29 Fl.nan = D.rowIntensity r := by
      rw [hz]; rfl
    have g0 : (D.rowIntersect r).getD 0 Fl.nan = z := by rw [hz]; rfl
    have g1 : (D.rowIntersect r).getD 1 Fl.nan = y := by rw [hz]; rfl
    rw [List.map_cons, List.filter_cons, List.filter_cons, e25, e26, g0, g1]
    by_cases hc : D.contains z y
    · rw [if_pos (by simp [hc]), if_pos (by simp [hc]), List.map_cons, List.map_cons, List.map_cons, List.map_cons, e29, ih']
    · rw [if_neg (by simp [hc]), if_neg (by simp [hc]), ih']

/-- counting by intensity -/
theorem count_map {α : Type} (f : α → Fl) (p : Fl → Prop) [DecidablePred p] (l : List α) :
    ((l.map f).filter fun v => decide (p v)).length = (l.filter fun a => decide (p (f a))).length := by
  rw [List.filter_map, List.length_map]; rfl

theorem skip_classes (l : List Fl) :
    (l.filter fun v => decide (¬ (Fl.IsFinite v ∧ Fl.Lt (fin 0) v))).length + (l.filter fun v => decide (Fl.IsFinite v ∧ Fl.Lt (fin 0) v)).length
      = l.length ∧
    (l.filter fun v => decide (v.isInf)).length + (l.filter fun v => decide (Fl.Le v (fin 0) ∧ ¬ v.isInf)).length +
      (l.filter fun v => decide (v = Fl.nan)).length = (l.filter fun v => decide (¬ (Fl.IsFinite v ∧ Fl.Lt (fin 0) v))).length := by
  induction l with
  | nil => simp
  | cons v l ih =>
    obtain ⟨h1, h2⟩ := ih
    cases v with
    | fin r =>
      by_cases hr : 0 < r
      · have : ¬ r ≤ 0 := not_le.mpr hr
        simp [List.filter_cons, Fl.isInf, hr, this]
        simp [Fl.isInf] at h1 h2
        omega
      · have : r ≤ 0 := not_lt.mp hr
        simp [List.filter_cons, Fl.isInf, hr, this]
        simp [Fl.isInf] at h1 h2
        omega
    | pinf =>
      simp [List.filter_cons, Fl.isInf]
      simp [Fl.isInf] at h1 h2
      omega
    | ninf =>
      simp [List.filter_cons, Fl.isInf]
      simp [Fl.isInf] at h1 h2
      omega
    | nan =>
      simp [List.filter_cons, Fl.isInf]
      simp [Fl.isInf] at h1 h2
      omega


theorem because_inf (v : Fl) : v.isInf ↔ Spec.Because .infiniteLorentz v := Iff.rfl
theorem because_nonPositive (v : Fl) : (Fl.Le v (fin 0) ∧ ¬ v.isInf) ↔ Spec.Because .nonPositive v := by
  cases v <;> simp [Fl.isInf, Spec.Because]

theorem rowIntensity_iff {D : Detector} {row : List Fl} (hl : row.length = 25) (I : Fl) :
    Spec.RowIntensity D.useStructureFactor D.usePolarization D.useLorentz peakColumns row I ↔ I = D.rowIntensity row := by
  have gd : ∀ j, j < 25 → row[j]? = some (row.getD j Fl.nan) := by
    intro j hj
    rw [List.getD_eq_getElem?_getD, List.getElem?_eq_getElem (by omega)]; rfl
  rw [rowIntensity_spec]
  constructor
  · rintro ⟨sf, pol, lor, h5, h20, h19, rfl⟩
    have k5 := (gd 5 (by norm_num)).symm.trans ((has_iff 5 rfl).mp h5)
    have k20 := (gd 20 (by norm_num)).symm.trans ((has_iff 20 rfl).mp h20)
    have k19 := (gd 19 (by norm_num)).symm.trans ((has_iff 19 rfl).mp h19)
    rw [Option.some.inj k5, Option.some.inj k20, Option.some.inj k19]
  · rintro rfl
    exact ⟨_, _, _, ⟨5, rfl, gd 5 (by norm_num)⟩, ⟨20, rfl, gd 20 (by norm_num)⟩, ⟨19, rfl, gd 19 (by norm_num)⟩, rfl⟩

theorem mem_parts {a b c k : ℕ} {r : SkipReason} :
    (k, r) ∈ skipPart a .infiniteLorentz ++ skipPart b .nonPositive ++ skipPart c .nan ↔
      0 < k ∧ k = (match r with | .infiniteLorentz => a | .nonPositive => b | .nan => c) := by
  unfold skipPart
  by_cases ha : 0 < a <;> by_cases hb : 0 < b <;> by_cases hc : 0 < c <;> cases r <;> simp [ha, hb, hc] <;> omega

theorem sum_parts (a b c : ℕ) :
    ((skipPart a .infiniteLorentz ++ skipPart b .nonPositive ++ skipPart c .nan).map Prod.fst).sum = a + b + c := by
  unfold skipPart
  by_cases ha : 0 < a <;> by_cases hb : 0 < b <;> by_cases hc : 0 < c <;> simp [ha, hb, hc] <;> omega

theorem nodup_parts (a b c : ℕ) :
    ((skipPart a .infiniteLorentz ++ skipPart b .nonPositive ++ skipPart c .nan).map Prod.snd).Nodup := by
  unfold skipPart
  by_cases ha : 0 < a <;> by_cases hb : 0 < b <;> by_cases hc : 0 < c <;> simp [ha, hb, hc]

/-- C106: a warning is issued exactly if the caller asked for messages and a peak that hits the detector is missing from the
result.  It states how many are missing; the reasons it names are different, each with a positive number of peaks, and the
numbers add up to the total.  The number given with a reason is the number of hits whose intensity factor (the product of the
enabled factors) is infinite, finite and not positive, or NaN respectively. -/
theorem C106_warning (c0 c1 c2 : V3) (np : PixArg ℤ) (ps : PixArg ℝ) (sg th : ℝ) (mr : ℤ) (fl fp fs : Bool)
    (D : Detector) (hD : Detector.new c0 c1 c2 np ps sg th mr fl fp fs = .ok D) (ho : dot (c2 - c0) (c1 - c0) = 0)
    (d : PeaksDict) (n : ℤ) (verbose : Bool) (hcol : d.columns = peakColumns) (hrows : ∀ row ∈ d.peaks, Spec.GoodRow row) :
    let hits := d.peaks.filter fun row => Spec.OnDetector c0 c1 c2 d.columns row
    let kept := (D.peaksIntersection d n).peaks
    (D.skipWarning d n verbose = none ↔ verbose = false ∨ kept.length = hits.length) ∧
    ∀ w, D.skipWarning d n verbose = some w →
      w.total + kept.length = hits.length ∧ (w.reasons.map Prod.fst).sum = w.total ∧ (w.reasons.map Prod.snd).Nodup ∧
      ∀ k r, (k, r) ∈ w.reasons ↔ 0 < k ∧ k = (hits.filter fun row =>
        ∃ I, Spec.RowIntensity fs fp fl d.columns row I ∧ Spec.Because r I).length := by
  intro hits kept
  have hf : D.useStructureFactor = fs ∧ D.usePolarization = fp ∧ D.useLorentz = fl := by
    unfold Detector.new at hD
    simp only at hD
    split at hD
    · cases hD
    · split_ifs at hD
      cases hD
      exact ⟨rfl, rfl, rfl⟩
  obtain ⟨rfl, rfl, rfl⟩ := hf
  have hhits : hits = d.peaks.filter fun row =>
      D.contains ((D.rowIntersect row).getD 0 Fl.nan) ((D.rowIntersect row).getD 1 Fl.nan) := by
    apply List.filter_congr
    intro row hrow
    rw [hcol]
    exact decide_eq_decide.mpr (onDetector_iff hD ho (hrows row hrow)).symm
  have hcolI : D.hitIntensities d n = hits.map D.rowIntensity := by
    rw [hhits]; exact hitIntensities_eq D d n fun r hr => (hrows r hr).1
  have hkept : kept.length = ((D.hitIntensities d n).filter fun v => Fl.IsFinite v ∧ Fl.Lt (fin 0) v).length := by
    rw [hcolI, count_map D.rowIntensity (fun v => Fl.IsFinite v ∧ Fl.Lt (fin 0) v), hhits, List.filter_filter]
    show ((D.peaksIntersection d n).peaks).length = _
    rw [peaksIntersection_rows D d n fun r hr => (hrows r hr).1, List.length_map]
    congr 1
    apply List.filter_congr
    intro row _
    rw [Bool.and_comm, ← Bool.decide_and]
  have hlen : hits.length = (D.hitIntensities d n).length := by rw [hcolI, List.length_map]
  obtain ⟨s1, s2⟩ := skip_classes (D.hitIntensities d n)
  constructor
  · unfold Detector.skipWarning
    simp only
    constructor
    · intro h
      by_contra hc
      push Not at hc
      rw [if_pos ⟨by omega, by simpa using hc.1⟩] at h
      cases h
    · intro h
      rw [if_neg]
      rintro ⟨h1, h2⟩
      rcases h with h | h
      · rw [h] at h2; cases h2
      · omega
  · intro w hw
    unfold Detector.skipWarning at hw
    simp only at hw
    split_ifs at hw with hcond
    obtain rfl := Option.some.inj hw
    refine ⟨by rw [hkept, hlen]; exact s1, ?_, nodup_parts _ _ _, ?_⟩
    · dsimp only
      rw [sum_parts]; exact s2
    · intro k r
      dsimp only
      rw [mem_parts]
      refine and_congr_right fun _ => ?_
      have key : ∀ (p : Fl → Prop) [DecidablePred p], (∀ v, p v ↔ Spec.Because r v) → ((D.hitIntensities d n).filter fun v => decide (p v)).length =
          (hits.filter fun row => decide (∃ I, Spec.RowIntensity D.useStructureFactor D.usePolarization D.useLorentz d.columns row I ∧
            Spec.Because r I)).length := by
        intro p _ hp
        rw [hcolI, count_map]
        congr 1
        apply List.filter_congr
        intro row hrow
        refine decide_eq_decide.mpr ?_
        have hl := (hrows row (List.mem_filter.mp hrow).1).1
        rw [hcol, hp]
        constructor
        · intro h; exact ⟨_, (rowIntensity_iff hl _).mpr rfl, h⟩
        · rintro ⟨I, hI, hb⟩
          rw [(rowIntensity_iff hl _).mp hI] at hb
          exact hb
      cases r with
      | infiniteLorentz => rw [← key (fun v => v.isInf) because_inf]
      | nonPositive => rw [← key (fun v => Fl.Le v (fin 0) ∧ ¬ v.isInf) because_nonPositive]
      | nan => rw [← key (fun v => v = Fl.nan) fun v => Iff.rfl]


theorem inf_iff_lorentz (fs fp fl : Bool) {sf pol : Fl} (lor : Fl) (h1 : fs = true → ∃ r : ℝ, sf = fin r ∧ 0 < r)
    (h2 : fp = true → ∃ r : ℝ, pol = fin r ∧ 0 < r) :
    Spec.Because .infiniteLorentz (Spec.intensity fs fp fl sf pol lor) ↔ fl = true ∧ (lor = pinf ∨ lor = ninf) := by
  obtain ⟨c, hc, hc0⟩ : ∃ c : ℝ, (if fs then sf else fin 1) * (if fp then pol else fin 1) = fin c ∧ 0 < c := by
    obtain ⟨a, ha, ha0⟩ : ∃ a : ℝ, (if fs then sf else fin 1) = fin a ∧ 0 < a := by
      cases fs with
      | true => exact h1 rfl
      | false => exact ⟨1, rfl, one_pos⟩
    obtain ⟨b, hb, hb0⟩ : ∃ b : ℝ, (if fp then pol else fin 1) = fin b ∧ 0 < b := by
      cases fp with
      | true => exact h2 rfl
      | false => exact ⟨1, rfl, one_pos⟩
    exact ⟨a * b, by rw [ha, hb, Fl.mul_fin], mul_pos ha0 hb0⟩
  have hn : ¬ c < 0 := by linarith
  unfold Spec.intensity Spec.Because
  rw [hc]
  cases fl with
  | false => simp [Fl.mul_fin]
  | true =>
    cases lor with
    | fin r => simp [Fl.mul_fin]
    | pinf =>
      have : (fin c * pinf : Fl) = pinf := by show infSign c = _; simp [infSign, hc0]
      simp [this]
    | ninf =>
      have : (fin c * ninf : Fl) = ninf := by show infSign (-c) = _; simp [infSign, hc0, hn]
      simp [this]
    | nan =>
      have : (fin c * Fl.nan : Fl) = Fl.nan := rfl
      simp [this]

/-- C106 (part): the message attributes the infinite intensities to the Lorentz factor.  If the enabled structure and
polarization factors of the hits are positive this is right: the number given is the number of hits with an infinite Lorentz
factor.  Without the hypothesis it is false (`C106_reasons_fails`). -/
theorem C106_reasons_partial (c0 c1 c2 : V3) (np : PixArg ℤ) (ps : PixArg ℝ) (sg th : ℝ) (mr : ℤ) (fl fp fs : Bool)
    (D : Detector) (hD : Detector.new c0 c1 c2 np ps sg th mr fl fp fs = .ok D) (ho : dot (c2 - c0) (c1 - c0) = 0)
    (d : PeaksDict) (n : ℤ) (verbose : Bool) (hcol : d.columns = peakColumns) (hrows : ∀ row ∈ d.peaks, Spec.GoodRow row)
    (hsf : fs = true → ∀ row ∈ d.peaks, Spec.OnDetector c0 c1 c2 d.columns row → ∃ r : ℝ, Has d.columns row "structure_factors" (fin r) ∧ 0 < r)
    (hpol : fp = true → ∀ row ∈ d.peaks, Spec.OnDetector c0 c1 c2 d.columns row → ∃ r : ℝ, Has d.columns row "polarization_factors" (fin r) ∧ 0 < r)
    (w : SkipWarning) (hw : D.skipWarning d n verbose = some w) (k : ℕ) :
    (k, SkipReason.infiniteLorentz) ∈ w.reasons ↔ 0 < k ∧ fl = true ∧
      k = (d.peaks.filter fun row => Spec.OnDetector c0 c1 c2 d.columns row ∧
        (Has d.columns row "lorentz_factors" pinf ∨ Has d.columns row "lorentz_factors" ninf)).length := by
  rw [((C106_warning c0 c1 c2 np ps sg th mr fl fp fs D hD ho d n verbose hcol hrows).2 w hw).2.2.2 k .infiniteLorentz,
    List.filter_filter]
  refine and_congr_right fun hk => ?_
  have key : ∀ row ∈ d.peaks, Spec.OnDetector c0 c1 c2 d.columns row →
      ((∃ I, Spec.RowIntensity fs fp fl d.columns row I ∧ Spec.Because .infiniteLorentz I) ↔
        fl = true ∧ (Has d.columns row "lorentz_factors" pinf ∨ Has d.columns row "lorentz_factors" ninf)) := by
    intro row hrow hon
    have hl := (hrows row hrow).1
    have gd : ∀ j, j < 25 → row[j]? = some (row.getD j Fl.nan) := by
      intro j hj
      rw [List.getD_eq_getElem?_getD, List.getElem?_eq_getElem (by omega)]; rfl
    rw [hcol] at hsf hpol hon ⊢
    have pos : ∀ {sf pol : Fl}, Has peakColumns row "structure_factors" sf → Has peakColumns row "polarization_factors" pol →
        (fs = true → ∃ r : ℝ, sf = fin r ∧ 0 < r) ∧ (fp = true → ∃ r : ℝ, pol = fin r ∧ 0 < r) := by
      intro sf pol h5 h20
      constructor
      · intro h
        obtain ⟨r, hr, h0⟩ := hsf h row hrow hon
        exact ⟨r, Option.some.inj (((has_iff 5 rfl).mp h5).symm.trans ((has_iff 5 rfl).mp hr)), h0⟩
      · intro h
        obtain ⟨r, hr, h0⟩ := hpol h row hrow hon
        exact ⟨r, Option.some.inj (((has_iff 20 rfl).mp h20).symm.trans ((has_iff 20 rfl).mp hr)), h0⟩
    constructor
    · rintro ⟨I, ⟨sf, pol, lor, h5, h20, h19, rfl⟩, hb⟩
      obtain ⟨p1, p2⟩ := pos h5 h20
      obtain ⟨h, hlor⟩ := (inf_iff_lorentz fs fp fl lor p1 p2).mp hb
      refine ⟨h, ?_⟩
      rcases hlor with rfl | rfl
      · exact .inl h19
      · exact .inr h19
    · rintro ⟨h, hlor⟩
      have h5 : Has peakColumns row "structure_factors" (row.getD 5 Fl.nan) := ⟨5, rfl, gd 5 (by norm_num)⟩
      have h20 : Has peakColumns row "polarization_factors" (row.getD 20 Fl.nan) := ⟨20, rfl, gd 20 (by norm_num)⟩
      obtain ⟨p1, p2⟩ := pos h5 h20
      rcases hlor with h19 | h19
      · exact ⟨_, ⟨_, _, _, h5, h20, h19, rfl⟩, (inf_iff_lorentz fs fp fl _ p1 p2).mpr ⟨h, .inl rfl⟩⟩
      · exact ⟨_, ⟨_, _, _, h5, h20, h19, rfl⟩, (inf_iff_lorentz fs fp fl _ p1 p2).mpr ⟨h, .inr rfl⟩⟩
  cases hfl : fl with
  | true =>
    simp only [true_and]
    have : (d.peaks.filter fun row => decide (∃ I, Spec.RowIntensity fs fp true d.columns row I ∧ Spec.Because .infiniteLorentz I) &&
          decide (Spec.OnDetector c0 c1 c2 d.columns row)) =
        d.peaks.filter fun row => decide (Spec.OnDetector c0 c1 c2 d.columns row ∧
          (Has d.columns row "lorentz_factors" pinf ∨ Has d.columns row "lorentz_factors" ninf)) := by
      apply List.filter_congr
      intro row hrow
      rw [← Bool.decide_and]
      refine decide_eq_decide.mpr ?_
      constructor
      · rintro ⟨h1, h2⟩
        have := key row hrow h2
        rw [hfl] at this
        exact ⟨h2, (this.mp h1).2⟩
      · rintro ⟨h1, h2⟩
        have := key row hrow h1
        rw [hfl] at this
        exact ⟨this.mpr ⟨rfl, h2⟩, h1⟩
    rw [this]
  | false =>
    simp only [Bool.false_eq_true, false_and, iff_false]
    intro hk2
    have : (d.peaks.filter fun row => decide (∃ I, Spec.RowIntensity fs fp false d.columns row I ∧ Spec.Because .infiniteLorentz I) &&
          decide (Spec.OnDetector c0 c1 c2 d.columns row)) = [] := by
      rw [List.filter_eq_nil_iff]
      intro row hrow
      rw [← Bool.decide_and, decide_eq_true_iff]
      rintro ⟨h1, h2⟩
      have := key row hrow h2
      rw [hfl] at this
      exact absurd (this.mp h1).1 (by simp)
    rw [this] at hk2
    simp at hk2
    omega


/-- the detector above the sample, with all correction factors -/
noncomputable def fullTop : Detector := { topDet with useLorentz := true, usePolarization := true }

theorem fullTop_new : Detector.new ⟨-100, -100, 4⟩ ⟨100, -100, 4⟩ ⟨-100, 100, 4⟩ .absent (.both 8) 1 (1/50) 2
    true true true = .ok fullTop := by
  have h := topDet_new
  unfold Detector.new at h ⊢
  simp only [pixelSizes] at h ⊢
  split_ifs at h ⊢ with h1 h2
  have := Except.ok.inj h
  unfold fullTop
  rw [← this]

/-- in the scene both peaks go straight up, where the polarization factor is zero and the Lorentz factor infinite -/
theorem up_scene : ∃ d p', scenePoly.diffract sceneX demoBeam demoZ 0 (Real.pi / 2) none = .ok (d, p') ∧ d.columns = peakColumns ∧
    d.peaks.length = 2 ∧ ∀ row ∈ d.peaks, row.length = 25 ∧ HasV d.columns row "K_out_x" "K_out_y" "K_out_z" ⟨0, 0, 1⟩ ∧
      (∃ S, HasV d.columns row "Source_x" "Source_y" "Source_z" S ∧ S.z ≤ 3 ∧ |S.x| ≤ 100 ∧ |S.y| ≤ 100) ∧
      row.getD 5 Fl.nan = fin 1 ∧ row.getD 20 Fl.nan = fin 0 ∧ row.getD 19 Fl.nan = pinf := by
  have h2 : Real.sqrt 2 / 2 ≤ 1 := by
    have : Real.sqrt 2 ≤ 2 := by rw [Real.sqrt_le_left (by norm_num)]; norm_num
    linarith
  set c : Crystal := ⟨.torch, [0], [⟨[1, 1, 1, 90, 90, 90], "P1", none, [⟨1, 0, 0⟩], none⟩], [1], [sceneB],
          [sceneMesh.espherecentroids.getD 0 0], [scenePoly.meshVolumes.getD 0 0]⟩ with hcdef
  obtain ⟨d, hd, hcol, -, t, ht, hpk⟩ := tangent_scene 1 sceneB (sceneMesh.espherecentroids.getD 0 0) (scenePoly.meshVolumes.getD 0 0)
    ⟨[1, 1, 1, 90, 90, 90], "P1", none, [⟨1, 0, 0⟩], none⟩ rfl rfl demoZ rfl norm_ez rfl rfl scene_sphere scene_roots
  rw [← hcdef] at hd hpk
  have hG0 : c.G0 0 ⟨1, 0, 0⟩ = ⟨-3/5, 4/5, 1⟩ := by
    ext <;> simp [hcdef, Crystal.G0, getG, HKL.toV, sceneB, mulVec, vecMul, V3.dot]
  have hK : demoZ.rotate1 (c.G0 0 ⟨1, 0, 0⟩) t + demoBeam.waveVector = ⟨0, 0, 1⟩ := by
    rw [hG0, demoZ_rot ht]; ext <;> simp [demoBeam]
  have hlor : lorentz ⟨1, 0, 0⟩ ⟨0, 0, 1⟩ ⟨0, 0, 1⟩ = pinf := by
    refine (C17_lorentz ⟨1, 0, 0⟩ ⟨0, 0, 1⟩ ⟨0, 0, 1⟩ norm_ez (by intro h; have := congrArg V3.x h; simp at this)
      (by rw [norm_eq_iff]; norm_num [nsq, V3.dot])).2.1 (by intro h; have := congrArg V3.x h; simp at this) (Or.inr (Or.inl ?_))
    have hp : perp ⟨1, 0, 0⟩ ⟨0, 0, 1⟩ = ⟨0, 0, 1⟩ := by ext <;> simp [perp, V3.dot]
    have h0 : angle ⟨0, 0, 1⟩ ⟨0, 0, 1⟩ = 0 := by unfold angle; rw [norm_ez]; simp [V3.dot]
    rw [hp, h0]; unfold deg; have := Real.pi_pos; positivity
  have hpol : polarization ⟨0, 0, 1⟩ ⟨0, 0, 1⟩ = fin 0 := by
    unfold polarization
    simp only [norm_ez]
    rw [Fl.div_fin_ne one_ne_zero, Fl.div_fin_ne one_ne_zero]
    simp [Fl.mul_fin]
  refine ⟨d, { scenePoly with phases := [⟨[1, 1, 1, 90, 90, 90], "P1", none, [⟨1, 0, 0⟩], none⟩] }, ?_, hcol, by rw [hpk]; rfl, ?_⟩
  · unfold Polycrystal.diffract
    have hlim : scenePoly.limits demoBeam 0 (Real.pi / 2) none = .ok (0, Real.pi / 2) := rfl
    rw [hlim]
    dsimp only
    have hph : scenePoly.setupPhases sceneX demoBeam.wavelength 0 (Real.pi / 2) =
        { scenePoly with phases := [⟨[1, 1, 1, 90, 90, 90], "P1", none, [⟨1, 0, 0⟩], none⟩] } := by
      simp only [Polycrystal.setupPhases, scenePoly, polyOf, List.map]
      rw [scene_setup 0 (Real.pi / 2) (by rw [Real.sin_zero]; positivity) (by rw [Real.sin_pi_div_two]; exact h2)]
    rw [hph]
    have hcr : Polycrystal.crystal { scenePoly with phases := [⟨[1, 1, 1, 90, 90, 90], "P1", none, [⟨1, 0, 0⟩], none⟩] } = c := rfl
    rw [hcr, hd]
  · have hall : ∀ k : ℕ, (fun row : List Fl => row.length = 25 ∧ HasV peakColumns row "K_out_x" "K_out_y" "K_out_z" ⟨0, 0, 1⟩ ∧
        (∃ S, HasV peakColumns row "Source_x" "Source_y" "Source_z" S ∧ S.z ≤ 3 ∧ |S.x| ≤ 100 ∧ |S.y| ≤ 100) ∧
        row.getD 5 Fl.nan = fin 1 ∧ row.getD 20 Fl.nan = fin 0 ∧ row.getD 19 Fl.nan = pinf)
          (row24 c demoBeam demoZ 0 0 ⟨1, 0, 0⟩ 1 t ++ [fin (k : ℝ)]) := by
      intro k
      have hbound := scene_sphere
      have hz3 := scene_sphere_z
      set S := sceneMesh.espherecentroids.getD 0 0 with hS
      have hx : S.x ^ 2 < 100 ∧ S.y ^ 2 < 100 := by
        unfold nsq V3.dot at hbound
        constructor <;> nlinarith [mul_self_nonneg S.x, mul_self_nonneg S.y, mul_self_nonneg S.z]
      have bx : |S.x| ≤ 10 := abs_le_of_sq_le_sq (by nlinarith) (by norm_num)
      have by' : |S.y| ≤ 10 := abs_le_of_sq_le_sq (by nlinarith) (by norm_num)
      rw [abs_le] at bx by'
      refine ⟨rfl, ⟨⟨13, rfl, ?_⟩, ⟨14, rfl, ?_⟩, ⟨15, rfl, ?_⟩⟩, ⟨demoZ.call1 S t, ⟨⟨16, rfl, rfl⟩, ⟨17, rfl, rfl⟩, ⟨18, rfl, rfl⟩⟩, ?_, ?_, ?_⟩, rfl, ?_, ?_⟩
      · show some (fin (demoZ.rotate1 (c.G0 0 ⟨1, 0, 0⟩) t + demoBeam.waveVector).x) = _; rw [hK]
      · show some (fin (demoZ.rotate1 (c.G0 0 ⟨1, 0, 0⟩) t + demoBeam.waveVector).y) = _; rw [hK]
      · show some (fin (demoZ.rotate1 (c.G0 0 ⟨1, 0, 0⟩) t + demoBeam.waveVector).z) = _; rw [hK]
      · rw [demoZ_at ht]; exact hz3
      · rw [demoZ_at ht, abs_le]; constructor <;> simp only <;> linarith
      · rw [demoZ_at ht, abs_le]; constructor <;> simp only <;> linarith
      · show polarization (demoZ.rotate1 (c.G0 0 ⟨1, 0, 0⟩) t + demoBeam.waveVector) demoBeam.polarization = _
        rw [hK]; exact hpol
      · show lorentz demoBeam.waveVector (demoZ.rotate1 (c.G0 0 ⟨1, 0, 0⟩) t + demoBeam.waveVector) demoZ.axis = _
        rw [hK]; exact hlor
    rw [hpk, hcol]
    intro r hr
    simp only [List.mem_cons, List.not_mem_nil, or_false] at hr
    rcases hr with rfl | rfl
    · exact hall 0
    · exact hall 1

theorem up_on {row : List Fl} (hK : HasV peakColumns row "K_out_x" "K_out_y" "K_out_z" ⟨0, 0, 1⟩)
    (hS : ∃ S, HasV peakColumns row "Source_x" "Source_y" "Source_z" S ∧ S.z ≤ 3 ∧ |S.x| ≤ 100 ∧ |S.y| ≤ 100) :
    Spec.OnDetector ⟨-100, -100, 4⟩ ⟨100, -100, 4⟩ ⟨-100, 100, 4⟩ peakColumns row := by
  obtain ⟨S, hS, hz, hx, hy⟩ := hS
  rw [abs_le] at hx hy
  refine ⟨_, S, (S.y + 100) / 200, (S.x + 100) / 200, hK, hS, ?_, by linarith, by linarith, by linarith, by linarith, 4 - S.z, by linarith, ?_⟩
  · norm_num [V3.dot, V3.cross]
  · ext <;> simp <;> ring

/-- C106 (fails): a hit with an infinite Lorentz factor is not always counted as one.  The two peaks of this sample leave along
the polarization direction and along the rotation axis: the polarization factor is zero, the Lorentz factor infinite, their
product NaN, and the warning names two peaks with NaN intensity and none with an infinite Lorentz factor. -/
theorem C106_reasons_fails : ∃ (p : Polycrystal) (d : PeaksDict) (p' : Polycrystal) (D : Detector) (w : SkipWarning),
    Polycrystal.new sceneX sceneMesh (.one 1) (.one 0) (.one scenePhase) (some [0]) = .ok p ∧
    Detector.new ⟨-100, -100, 4⟩ ⟨100, -100, 4⟩ ⟨-100, 100, 4⟩ .absent (.both 8) 1 (1/50) 2 true true true = .ok D ∧
    p.diffract sceneX demoBeam demoZ 0 (Real.pi / 2) none = .ok (d, p') ∧ d.peaks.length = 2 ∧
    (∀ row ∈ d.peaks, Spec.OnDetector ⟨-100, -100, 4⟩ ⟨100, -100, 4⟩ ⟨-100, 100, 4⟩ d.columns row ∧ Has d.columns row "lorentz_factors" pinf) ∧
    D.skipWarning d 1 true = some w ∧ w.total = 2 ∧ w.reasons = [(2, .nan)] := by
  obtain ⟨d, p', hd, hcol, hlen, hrow⟩ := up_scene
  have hgood : ∀ row ∈ d.peaks, Spec.GoodRow row := by
    intro row hr
    obtain ⟨h1, h2, ⟨S, h3, -⟩, -⟩ := hrow row hr
    rw [hcol] at h2 h3
    exact ⟨h1, ⟨_, h2⟩, ⟨S, h3⟩⟩
  have hon : ∀ row ∈ d.peaks, Spec.OnDetector ⟨-100, -100, 4⟩ ⟨100, -100, 4⟩ ⟨-100, 100, 4⟩ peakColumns row := by
    intro row hr
    obtain ⟨h1, h2, h3, -⟩ := hrow row hr
    rw [hcol] at h2 h3
    exact up_on h2 h3
  have ho : dot ((⟨-100, 100, 4⟩ : V3) - ⟨-100, -100, 4⟩) ((⟨100, -100, 4⟩ : V3) - ⟨-100, -100, 4⟩) = 0 := by
    norm_num [V3.dot]
  have hint : fullTop.hitIntensities d 1 = [Fl.nan, Fl.nan] := by
    rw [hitIntensities_eq _ _ _ fun r hr => (hrow r hr).1, List.filter_eq_self.mpr]
    · have : ∀ r ∈ d.peaks, fullTop.rowIntensity r = Fl.nan := by
        intro r hr
        obtain ⟨-, -, -, h5, h20, h19⟩ := hrow r hr
        rw [rowIntensity_spec, h5, h20, h19]
        show Spec.intensity true true true _ _ _ = _
        unfold Spec.intensity
        simp only [if_true, Fl.mul_fin]
        show infSign (1 * 0) = _
        simp [infSign]
      rw [List.map_congr_left this, List.map_const', hlen]
      rfl
    · intro r hr
      exact decide_eq_true ((onDetector_iff fullTop_new ho (hgood r hr)).mpr (hon r hr))
  refine ⟨scenePoly, d, p', fullTop, ⟨2, [(2, .nan)]⟩, scenePoly_new, fullTop_new, hd, hlen, ?_, ?_, rfl, rfl⟩
  · intro row hr
    rw [hcol]
    refine ⟨hon row hr, 19, rfl, ?_⟩
    obtain ⟨h1, -, -, -, -, h19⟩ := hrow row hr
    rw [← h19, List.getD_eq_getElem?_getD, List.getElem?_eq_getElem (by omega)]; rfl
  · unfold Detector.skipWarning
    rw [hint]
    simp [Fl.isInf, skipPart]


/-- the detector above the sample, with the structure and Lorentz factors -/
noncomputable def lorTop : Detector := { topDet with useLorentz := true }

theorem lorTop_new : Detector.new ⟨-100, -100, 4⟩ ⟨100, -100, 4⟩ ⟨-100, 100, 4⟩ .absent (.both 8) 1 (1/50) 2
    true false true = .ok lorTop := by
  have h := topDet_new
  unfold Detector.new at h ⊢
  simp only [pixelSizes] at h ⊢
  split_ifs at h ⊢ with h1 h2
  have := Except.ok.inj h
  unfold lorTop
  rw [← this]

/-- the hypotheses of the partial theorem are met and the warning is issued: without the polarization factor the same two peaks
are named as peaks with an infinite Lorentz factor -/
example : ∃ (d : PeaksDict) (p' : Polycrystal) (w : SkipWarning), scenePoly.diffract sceneX demoBeam demoZ 0 (Real.pi / 2) none = .ok (d, p') ∧
    (∀ row ∈ d.peaks, Spec.GoodRow row ∧ Has d.columns row "structure_factors" (fin 1)) ∧
    lorTop.skipWarning d 1 true = some w ∧ w.reasons = [(2, .infiniteLorentz)] := by
  obtain ⟨d, p', hd, hcol, hlen, hrow⟩ := up_scene
  have hgood : ∀ row ∈ d.peaks, Spec.GoodRow row := by
    intro row hr
    obtain ⟨h1, h2, ⟨S, h3, -⟩, -⟩ := hrow row hr
    rw [hcol] at h2 h3
    exact ⟨h1, ⟨_, h2⟩, ⟨S, h3⟩⟩
  have ho : dot ((⟨-100, 100, 4⟩ : V3) - ⟨-100, -100, 4⟩) ((⟨100, -100, 4⟩ : V3) - ⟨-100, -100, 4⟩) = 0 := by
    norm_num [V3.dot]
  have hint : lorTop.hitIntensities d 1 = [pinf, pinf] := by
    rw [hitIntensities_eq _ _ _ fun r hr => (hrow r hr).1, List.filter_eq_self.mpr]
    · have : ∀ r ∈ d.peaks, lorTop.rowIntensity r = pinf := by
        intro r hr
        obtain ⟨-, -, -, h5, h20, h19⟩ := hrow r hr
        rw [rowIntensity_spec, h5, h20, h19]
        show Spec.intensity true false true _ _ _ = _
        unfold Spec.intensity
        simp only [if_true, Bool.false_eq_true, if_false, Fl.mul_fin]
        show infSign (1 * 1) = _
        simp [infSign]
      rw [List.map_congr_left this, List.map_const', hlen]
      rfl
    · intro r hr
      refine decide_eq_true ((onDetector_iff lorTop_new ho (hgood r hr)).mpr ?_)
      obtain ⟨h1, h2, h3, -⟩ := hrow r hr
      rw [hcol] at h2 h3
      exact up_on h2 h3
  refine ⟨d, p', ⟨2, [(2, .infiniteLorentz)]⟩, hd, ?_, ?_, rfl⟩
  · intro row hr
    refine ⟨hgood row hr, ?_⟩
    rw [hcol]
    refine ⟨5, rfl, ?_⟩
    obtain ⟨h1, -, -, h5, -⟩ := hrow row hr
    rw [← h5, List.getD_eq_getElem?_getD, List.getElem?_eq_getElem (by omega)]; rfl
  · unfold Detector.skipWarning
    rw [hint]
    simp [Fl.isInf, skipPart]

end XRD
