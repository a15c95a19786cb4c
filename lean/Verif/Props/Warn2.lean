import Verif.Props.Warn

/-! Property C106, exact extent: when the number of peaks "with infinite Lorentz factor" in the warning is right. -/

namespace XRD
open V3 M3 Fl Spec
open scoped Classical

theorem inf_iff_lorentz' (fs fp fl : Bool) {sf pol : Fl} (lor : Fl) (h1 : fs = true → ∃ r : ℝ, sf = fin r)
    (h2 : fp = true → ∃ r : ℝ, pol = fin r) :
    Spec.Because .infiniteLorentz (Spec.intensity fs fp fl sf pol lor) ↔ fl = true ∧ (lor = pinf ∨ lor = ninf) ∧
      ¬ (fs = true ∧ sf = fin 0) ∧ ¬ (fp = true ∧ pol = fin 0) := by
  obtain ⟨a, ha, ha0⟩ : ∃ a : ℝ, (if fs then sf else fin 1) = fin a ∧ (a = 0 ↔ fs = true ∧ sf = fin 0) := by
    cases fs with
    | true => obtain ⟨r, rfl⟩ := h1 rfl; exact ⟨r, rfl, by simp⟩
    | false => exact ⟨1, rfl, by simp⟩
  obtain ⟨b, hb, hb0⟩ : ∃ b : ℝ, (if fp then pol else fin 1) = fin b ∧ (b = 0 ↔ fp = true ∧ pol = fin 0) := by
    cases fp with
    | true => obtain ⟨r, rfl⟩ := h2 rfl; exact ⟨r, rfl, by simp⟩
    | false => exact ⟨1, rfl, by simp⟩
  rw [← ha0, ← hb0]
  unfold Spec.intensity Spec.Because
  rw [ha, hb, Fl.mul_fin]
  have hab : (¬ a = 0 ∧ ¬ b = 0) ↔ a * b ≠ 0 := by rw [Ne, mul_eq_zero, not_or]
  rw [hab]
  generalize a * b = c
  cases fl with
  | false => simp [Fl.mul_fin]
  | true =>
    have inf : ∀ x : ℝ, (infSign x = pinf ∨ infSign x = ninf) ↔ x ≠ 0 := by
      intro x
      unfold infSign
      rcases lt_trichotomy x 0 with h | h | h
      · simp [h, not_lt.mpr h.le, h.ne]
      · simp [h]
      · simp [h, h.ne']
    cases lor with
    | fin r => simp [Fl.mul_fin]
    | pinf =>
      have : (fin c * pinf : Fl) = infSign c := rfl
      simp only [if_true, this, inf]; simp
    | ninf =>
      have : (fin c * ninf : Fl) = infSign (-c) := rfl
      simp only [if_true, this, inf]; simp
    | nan =>
      have : (fin c * Fl.nan : Fl) = Fl.nan := rfl
      simp [this]

/-- C106, exactly when the attribution is right: for tables whose enabled structure and polarization factors are numbers, the warning's
count of peaks "with infinite Lorentz factor" is the number of hits with an infinite Lorentz factor exactly if no such hit has an enabled
factor equal to zero. -/
theorem C106_reasons_right_iff (c0 c1 c2 : V3) (np : PixArg ℤ) (ps : PixArg ℝ) (sg th : ℝ) (mr : ℤ) (fl fp fs : Bool)
    (D : Detector) (hD : Detector.new c0 c1 c2 np ps sg th mr fl fp fs = .ok D) (ho : dot (c2 - c0) (c1 - c0) = 0)
    (d : PeaksDict) (n : ℤ) (verbose : Bool) (hcol : d.columns = peakColumns) (hrows : ∀ row ∈ d.peaks, Spec.GoodRow row)
    (hsf : fs = true → ∀ row ∈ d.peaks, Spec.OnDetector c0 c1 c2 d.columns row → ∃ r : ℝ, Has d.columns row "structure_factors" (fin r))
    (hpol : fp = true → ∀ row ∈ d.peaks, Spec.OnDetector c0 c1 c2 d.columns row → ∃ r : ℝ, Has d.columns row "polarization_factors" (fin r))
    (w : SkipWarning) (hw : D.skipWarning d n verbose = some w) :
    (∀ k, (k, SkipReason.infiniteLorentz) ∈ w.reasons ↔ 0 < k ∧ fl = true ∧
      k = (d.peaks.filter fun row => Spec.OnDetector c0 c1 c2 d.columns row ∧
        (Has d.columns row "lorentz_factors" pinf ∨ Has d.columns row "lorentz_factors" ninf)).length) ↔
    (fl = true → ∀ row ∈ d.peaks, Spec.OnDetector c0 c1 c2 d.columns row →
      (Has d.columns row "lorentz_factors" pinf ∨ Has d.columns row "lorentz_factors" ninf) →
      ¬ (fs = true ∧ Has d.columns row "structure_factors" (fin 0)) ∧ ¬ (fp = true ∧ Has d.columns row "polarization_factors" (fin 0))) := by
  have hmem := fun k => ((C106_warning c0 c1 c2 np ps sg th mr fl fp fs D hD ho d n verbose hcol hrows).2 w hw).2.2.2 k .infiniteLorentz
  simp only [hmem, List.filter_filter]
  have key : ∀ row ∈ d.peaks, Spec.OnDetector c0 c1 c2 d.columns row →
      ((∃ I, Spec.RowIntensity fs fp fl d.columns row I ∧ Spec.Because .infiniteLorentz I) ↔
        fl = true ∧ (Has d.columns row "lorentz_factors" pinf ∨ Has d.columns row "lorentz_factors" ninf) ∧
        ¬ (fs = true ∧ Has d.columns row "structure_factors" (fin 0)) ∧ ¬ (fp = true ∧ Has d.columns row "polarization_factors" (fin 0))) := by
    intro row hrow hon
    have hl := (hrows row hrow).1
    have gd : ∀ j, j < 25 → row[j]? = some (row.getD j Fl.nan) := by
      intro j hj
      rw [List.getD_eq_getElem?_getD, List.getElem?_eq_getElem (by omega)]; rfl
    have hsf' := fun h => hsf h row hrow hon
    have hpol' := fun h => hpol h row hrow hon
    rw [hcol] at hsf' hpol' ⊢
    have g5 : ∀ v, Has peakColumns row "structure_factors" v ↔ row.getD 5 Fl.nan = v := by
      intro v; rw [has_iff 5 rfl, gd 5 (by norm_num), Option.some.injEq]
    have g20 : ∀ v, Has peakColumns row "polarization_factors" v ↔ row.getD 20 Fl.nan = v := by
      intro v; rw [has_iff 20 rfl, gd 20 (by norm_num), Option.some.injEq]
    have g19 : ∀ v, Has peakColumns row "lorentz_factors" v ↔ row.getD 19 Fl.nan = v := by
      intro v; rw [has_iff 19 rfl, gd 19 (by norm_num), Option.some.injEq]
    simp only [g5, g20] at hsf' hpol'
    rw [g5, g20, g19, g19, ← inf_iff_lorentz' fs fp fl (row.getD 19 Fl.nan) hsf' hpol']
    constructor
    · rintro ⟨I, ⟨sf, pol, lor, h5, h20, h19, rfl⟩, hb⟩
      rw [g5] at h5; rw [g20] at h20; rw [g19] at h19
      rw [h5, h20, h19]; exact hb
    · intro hb
      exact ⟨_, ⟨_, _, _, (g5 _).mpr rfl, (g20 _).mpr rfl, (g19 _).mpr rfl, rfl⟩, hb⟩
  cases hfl : fl with
  | false =>
    subst hfl
    have hnil : (d.peaks.filter fun row => decide (∃ I, Spec.RowIntensity fs fp false d.columns row I ∧ Spec.Because .infiniteLorentz I) &&
          decide (Spec.OnDetector c0 c1 c2 d.columns row)) = [] := by
      rw [List.filter_eq_nil_iff]
      intro row hrow
      rw [← Bool.decide_and, decide_eq_true_iff]
      rintro ⟨h1, h2⟩
      exact absurd ((key row hrow h2).mp h1).1 (by simp)
    rw [hnil]
    refine iff_of_true ?_ (fun h => by simp at h)
    intro k; simp only [List.length_nil, Bool.false_eq_true, false_and, and_false, iff_false, not_and]; omega
  | true =>
    subst hfl
    simp only [true_and, forall_const]
    have hA : (d.peaks.filter fun row => decide (∃ I, Spec.RowIntensity fs fp true d.columns row I ∧ Spec.Because .infiniteLorentz I) &&
          decide (Spec.OnDetector c0 c1 c2 d.columns row)) =
        (d.peaks.filter fun row => decide (Spec.OnDetector c0 c1 c2 d.columns row ∧
          (Has d.columns row "lorentz_factors" pinf ∨ Has d.columns row "lorentz_factors" ninf))).filter fun row =>
          decide (¬ (fs = true ∧ Has d.columns row "structure_factors" (fin 0)) ∧ ¬ (fp = true ∧ Has d.columns row "polarization_factors" (fin 0))) := by
      rw [List.filter_filter]
      apply List.filter_congr
      intro row hrow
      rw [← Bool.decide_and, ← Bool.decide_and]
      refine decide_eq_decide.mpr ?_
      constructor
      · rintro ⟨h1, h2⟩
        have := (key row hrow h2).mp h1
        exact ⟨this.2.2, h2, this.2.1⟩
      · rintro ⟨h1, h2, h3⟩
        exact ⟨(key row hrow h2).mpr ⟨rfl, h3, h1⟩, h2⟩
    rw [hA]
    set B := d.peaks.filter fun row => decide (Spec.OnDetector c0 c1 c2 d.columns row ∧
          (Has d.columns row "lorentz_factors" pinf ∨ Has d.columns row "lorentz_factors" ninf)) with hB
    set f : List Fl → Bool := fun row => decide (¬ (fs = true ∧ Has d.columns row "structure_factors" (fin 0)) ∧
      ¬ (fp = true ∧ Has d.columns row "polarization_factors" (fin 0))) with hf
    have hlen : (∀ k, (0 < k ∧ k = (B.filter f).length) ↔ (0 < k ∧ k = B.length)) ↔ (B.filter f).length = B.length := by
      have hle := List.length_filter_le f B
      constructor
      · intro h
        by_cases h0 : B.length = 0
        · omega
        · exact ((h B.length).mpr ⟨by omega, rfl⟩).2.symm
      · intro h k; rw [h]
    rw [hlen, List.length_filter_eq_length_iff]
    constructor
    · intro h row hrow hon hlor
      have := h row (by rw [hB, List.mem_filter]; exact ⟨hrow, by simpa using ⟨hon, hlor⟩⟩)
      exact of_decide_eq_true this
    · intro h row hrow
      rw [hB, List.mem_filter, decide_eq_true_iff] at hrow
      rw [hf]
      exact decide_eq_true (h row hrow.1 hrow.2.1 hrow.2.2)

/-- the hypotheses are met, with the attribution wrong, by the peaks of `C106_reasons_fails` -/
example : ∃ (d : PeaksDict) (p' : Polycrystal) (w : SkipWarning), scenePoly.diffract sceneX demoBeam demoZ 0 (Real.pi / 2) none = .ok (d, p') ∧
    d.columns = peakColumns ∧ fullTop.skipWarning d 1 true = some w ∧ ∀ row ∈ d.peaks, Spec.GoodRow row := by
  obtain ⟨p, d, p', D, w, h1, h2, h3, h4, h5, h6, h7, h8⟩ := C106_reasons_fails
  obtain rfl := Except.ok.inj (scenePoly_new.symm.trans h1)
  obtain rfl := Except.ok.inj (fullTop_new.symm.trans h2)
  obtain ⟨d', p2, hd, hcol, hlen, hrow⟩ := up_scene
  obtain ⟨rfl, rfl⟩ := Prod.mk.inj (Except.ok.inj (hd.symm.trans h3))
  refine ⟨d', p2, w, hd, hcol, h6, ?_⟩
  intro row hr
  obtain ⟨g1, g2, ⟨S, g3, -⟩, -⟩ := hrow row hr
  rw [hcol] at g2 g3
  exact ⟨g1, ⟨_, g2⟩, ⟨S, g3⟩⟩

end XRD
