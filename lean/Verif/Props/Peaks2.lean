import Verif.Props.Scattering

/-! Property C03 (no event twice), C60 (single reflections) and the link between phase set-up and peaks. -/

namespace XRD
open V3 M3 Fl Spec
open scoped Classical

/-- column names are distinct, so a named column is one position -/
theorem has_iff {row : List Fl} {nm : String} {v : Fl} (i : ℕ) (h : peakColumns[i]? = some nm) :
    Has peakColumns row nm v ↔ row[i]? = some v := by
  constructor
  · rintro ⟨j, hj, hv⟩
    obtain ⟨b0, e0⟩ := List.getElem?_eq_some_iff.mp h
    obtain ⟨b1, e1⟩ := List.getElem?_eq_some_iff.mp hj
    have hnd : peakColumns.Nodup := by decide
    have : j = i := (hnd.getElem_inj_iff).mp (by rw [e0, e1])
    rw [← this]; exact hv
  · intro hv; exact ⟨i, h, hv⟩

/-- rate of change of the Laue equation along the rotation -/
theorem laue_derivative {a : V3} (ha : nsq a = 1) (k G : V3) (θ : ℝ) :
    -((rho0Factor k a).dot G) * Real.sin θ + (rho1Factor k a).dot G * Real.cos θ
      = k.dot (cross a ((rotMat a θ).mulVec G)) := by
  have hx : a.x * a.x + a.y * a.y + a.z * a.z = 1 := ha
  simp only [rho0Factor, rho1Factor, rotMat, crossMat2, crossMat, vecMul, V3.dot, V3.cross, mulVec,
    M3.add_r0, M3.add_r1, M3.add_r2, M3.smul_r0, M3.smul_r1, M3.smul_r2, V3.add_x, V3.add_y, V3.add_z,
    M3.mul_r0, M3.mul_r1, M3.mul_r2, M3.one_r0, M3.one_r1, M3.one_r2,
    V3.smul_x, V3.smul_y, V3.smul_z, V3.neg_x, V3.neg_y, V3.neg_z]
  linear_combination ((1 - Real.cos θ) * (k.x * (a.y * G.z - a.z * G.y) + k.y * (a.z * G.x - a.x * G.z) + k.z * (a.x * G.y - a.y * G.x))) * hx

/-- if both branches give the same time the Laue equation has a double root there -/
theorem double_root {f0 f1 f2 G : V3} {dω t : ℝ} (hd : 0 < dω)
    (h1 : keepTime (laueTime (laueRoots f0 f1 f2 G).1 dω) = some t)
    (h2 : keepTime (laueTime (laueRoots f0 f1 f2 G).2 dω) = some t) :
    -(f0.dot G) * Real.sin (t * dω) + f1.dot G * Real.cos (t * dω) = 0 := by
  obtain ⟨-, -, -, s1, hs1, ht1⟩ := branch_sound hd (Or.inl rfl) h1
  obtain ⟨-, -, -, s2, hs2, ht2⟩ := branch_sound hd (Or.inr rfl) h2
  have hss : s1 = s2 := Real.arctan_injective (by linarith)
  by_cases hD : f2.dot G + nsq G / 2 - f0.dot G = 0
  · rw [laueRoots_nan hD] at hs1; cases hs1
  rw [laueRoots_ne hD] at hs1 hs2
  simp only at hs1 hs2
  set D := f2.dot G + nsq G / 2 - f0.dot G with hDdef
  split_ifs at hs1 hs2 with hneg
  have e1 := Fl.fin.inj hs1
  have e2 := Fl.fin.inj hs2
  have hsq0 : Real.sqrt (f1.dot G / D * (f1.dot G / D) - (f2.dot G + nsq G / 2 + f0.dot G) / D) = 0 := by linarith
  have hs : s1 = -(f1.dot G / D) := by linarith
  have hdisc := (Real.sqrt_eq_zero (not_lt.mp hneg)).mp hsq0
  have hp : 0 < 1 + s1 ^ 2 := by positivity
  have hc : Real.cos (2 * Real.arctan s1) = (1 - s1 ^ 2) / (1 + s1 ^ 2) := by
    rw [Real.cos_two_mul, Real.cos_sq_arctan]; field_simp; ring
  have hsn : Real.sin (2 * Real.arctan s1) = 2 * s1 / (1 + s1 ^ 2) := by
    rw [Real.sin_two_mul]
    have h5 := Real.cos_sq_arctan s1
    have h6 : Real.sin (Real.arctan s1) = s1 * Real.cos (Real.arctan s1) := by
      have := Real.tan_arctan s1
      rw [Real.tan_eq_sin_div_cos, div_eq_iff (Real.cos_arctan_pos s1).ne'] at this
      exact this
    rw [h6]
    have : 2 * (s1 * Real.cos (Real.arctan s1)) * Real.cos (Real.arctan s1) = 2 * s1 * Real.cos (Real.arctan s1) ^ 2 := by ring
    rw [this, h5]; field_simp
  rw [ht1, hc, hsn]
  have key : -(f0.dot G) * (2 * s1) + f1.dot G * (1 - s1 ^ 2) = 0 := by
    have e3 : s1 ^ 2 = (f2.dot G + nsq G / 2 + f0.dot G) / D := by rw [hs]; linarith [hdisc]
    rw [e3, hs]
    have : f2.dot G + nsq G / 2 = D + f0.dot G := by rw [hDdef]; ring
    rw [this]; field_simp; ring
  rw [mul_div_assoc', mul_div_assoc', ← add_div, key, zero_div]

/-- the event `(e, i, hkl, t)` of two ten-column rows -/
def SameEvent (r r' : List ℝ) : Prop :=
  colD r 0 = colD r' 0 ∧ colD r 1 = colD r' 1 ∧ colD r 2 = colD r' 2 ∧ colD r 3 = colD r' 3 ∧ colD r 4 = colD r' 4 ∧
  colD r 6 = colD r' 6

/-- the reflection of a row touches the Ewald sphere -/
def Tangent (b : Beam) (m : Motion) (r : List ℝ) : Prop :=
  b.waveVector.dot (cross m.axis (m.rotate1 ⟨colD r 7, colD r 8, colD r 9⟩ (colD r 6))) = 0

theorem pairwise_range_getD {α : Type} {l : List α} (d : α) (h : l.Nodup) {i j : ℕ} (hi : i < l.length) (hj : j < l.length)
    (he : l.getD i d = l.getD j d) : i = j := by
  rw [List.getD_eq_getElem?_getD, List.getD_eq_getElem?_getD, List.getElem?_eq_getElem hi, List.getElem?_eq_getElem hj] at he
  exact (h.getElem_inj_iff).mp he

theorem activePlanes_nodup {ph : Phase} (hc : ph.Consistent) (h : ph.miller.Nodup) : (activePlanes ph).1.Nodup := by
  unfold activePlanes
  cases hs : ph.structureFactors with
  | none => exact h
  | some sf =>
    have hl := hc sf hs
    simp only
    apply List.Nodup.sublist _ h
    have : ((ph.miller.zip (List.map (fun v => decide (v > 1 / 10 ^ 6)) (sf.map fun c => c.1 ^ 2 + c.2 ^ 2))).map (·.1)) = ph.miller := by
      rw [List.map_fst_zip]; simp [hl]
    exact (List.Sublist.map _ List.filter_sublist).trans ((congrArg (fun l => l.Sublist ph.miller) this).mpr (List.Sublist.refl _))

theorem laueBranch_pairwise (pick : Fl × Fl → Fl) (G0 : List (List V3)) (f0 f1 f2 : V3) (dω : ℝ) :
    (laueBranch pick G0 f0 f1 f2 dω).Pairwise fun s s' => ¬ (s.grain = s'.grain ∧ s.plane = s'.plane) := by
  unfold laueBranch
  rw [List.pairwise_flatMap]
  constructor
  · intro g _
    rw [List.pairwise_filterMap]
    refine List.Pairwise.imp ?_ (List.pairwise_lt_range)
    intro p p' hlt s hs s' hs'
    simp only [Option.map_eq_some_iff] at hs hs'
    obtain ⟨_, _, rfl⟩ := hs
    obtain ⟨_, _, rfl⟩ := hs'
    rintro ⟨_, h⟩
    exact hlt.ne h
  · refine List.Pairwise.imp ?_ (List.pairwise_lt_range)
    intro g g' hlt s hs s' hs'
    simp only [List.mem_filterMap, Option.map_eq_some_iff] at hs hs'
    obtain ⟨_, _, _, _, rfl⟩ := hs
    obtain ⟨_, _, _, _, rfl⟩ := hs'
    rintro ⟨h, _⟩
    exact hlt.ne h

theorem laueSolutions_pairwise {b : Beam} {m : Motion} (ha : nsq m.axis = 1) (hw : 0 < m.angle) (G0 : List (List V3)) :
    (laueSolutions G0 (rho0Factor b.waveVector m.axis) (rho1Factor b.waveVector m.axis)
      (rho2Factor b.waveVector m.axis) m.angle).Pairwise fun s s' =>
      s.grain = s'.grain → s.plane = s'.plane → s.time = s'.time →
        b.waveVector.dot (cross m.axis (m.rotate1 s.G s.time)) = 0 := by
  unfold laueSolutions
  rw [List.pairwise_append]
  refine ⟨?_, ?_, ?_⟩
  · exact (laueBranch_pairwise _ _ _ _ _ _).imp fun h h1 h2 _ => absurd ⟨h1, h2⟩ h
  · exact (laueBranch_pairwise _ _ _ _ _ _).imp fun h h1 h2 _ => absurd ⟨h1, h2⟩ h
  · intro s hs s' hs' h1 h2 h3
    obtain ⟨row, e1, e2, e3⟩ := mem_laueBranch.mp hs
    obtain ⟨row', e1', e2', e3'⟩ := mem_laueBranch.mp hs'
    rw [← h1, e1] at e1'
    obtain rfl := Option.some.inj e1'
    rw [← h2, e2] at e2'
    have hG := Option.some.inj e2'
    rw [← hG, ← h3] at e3'
    have := double_root hw e3 e3'
    rw [laue_derivative ha, mul_comm] at this
    exact this

theorem grainIndices_nodup (pm : List ℝ) (i : ℕ) : (grainIndices pm i).Nodup := by
  unfold grainIndices; exact List.Nodup.filter _ List.nodup_range

theorem toV_injective {p q : HKL} (h : p.toV = q.toV) : p = q := by
  have hx := congrArg V3.x h; have hy := congrArg V3.y h; have hz := congrArg V3.z h
  simp only [HKL.toV, Int.cast_inj] at hx hy hz
  cases p; cases q; simp_all

theorem allPhaseRows_pairwise {c : Crystal} {b : Beam} {m : Motion} (ha : nsq m.axis = 1) (hw : 0 < m.angle)
    (hc : ∀ ph ∈ c.phases, ph.Consistent) (hnd : ∀ ph ∈ c.phases, ph.miller.Nodup) :
    (allPhaseRows c b m).Pairwise fun r r' => SameEvent r r' → Tangent b m r := by
  unfold allPhaseRows
  rw [List.pairwise_flatMap]
  constructor
  · intro i hi
    rw [List.mem_range] at hi
    rw [List.getElem?_eq_getElem hi]
    set ph := c.phases[i] with hph
    have hm : ph ∈ c.phases := List.getElem_mem hi
    unfold phaseRows
    simp only
    rw [List.pairwise_map]
    set G0 := (grainIndices c.phaseMap i).map fun e => (activePlanes ph).1.map fun p =>
      getG (c.orientation.getD e 0) (c.eB.getD e 0) p.toV with hG0
    refine List.Pairwise.imp_of_mem ?_ (laueSolutions_pairwise ha hw G0)
    intro s s' hs hs' hR hsame
    obtain ⟨row, e1, e2, e3⟩ := mem_laueSolutions.mp hs
    obtain ⟨row', e1', e2', e3'⟩ := mem_laueSolutions.mp hs'
    have bound : ∀ {s : LaueSol} {row : List V3}, G0[s.grain]? = some row → row[s.plane]? = some s.G →
        s.grain < (grainIndices c.phaseMap i).length ∧ s.plane < (activePlanes ph).1.length := by
      intro s row h1 h2
      rw [hG0, List.getElem?_map, Option.map_eq_some_iff] at h1
      obtain ⟨e, he, rfl⟩ := h1
      rw [List.getElem?_map, Option.map_eq_some_iff] at h2
      obtain ⟨p, hp, _⟩ := h2
      exact ⟨(List.getElem?_eq_some_iff.mp he).1, (List.getElem?_eq_some_iff.mp hp).1⟩
    obtain ⟨b1, b2⟩ := bound e1 e2
    obtain ⟨b1', b2'⟩ := bound e1' e2'
    obtain ⟨c0, -, c2, c3, c4, c6⟩ := hsame
    simp only [colD, List.getD_cons_zero, List.getD_cons_succ] at c0 c2 c3 c4 c6
    have hg : s.grain = s'.grain := pairwise_range_getD 0 (grainIndices_nodup _ _) b1 b1' (by exact_mod_cast c0)
    have hp : s.plane = s'.plane := by
      have hv : ((activePlanes ph).1.map HKL.toV).getD s.plane 0 = ((activePlanes ph).1.map HKL.toV).getD s'.plane 0 := by
        ext
        · exact c2
        · exact c3
        · exact c4
      refine pairwise_range_getD 0 ?_ (by simpa using b2) (by simpa using b2') hv
      exact (activePlanes_nodup (hc ph hm) (hnd ph hm)).map (fun p q h => toV_injective h)
    have := hR hg hp c6
    unfold Tangent
    simpa [colD] using this
  · refine List.Pairwise.imp_of_mem ?_ (List.pairwise_lt_range)
    intro i i' hi hi' hlt r hr r' hr' hsame
    rw [List.mem_range] at hi hi'
    rw [List.getElem?_eq_getElem hi] at hr
    rw [List.getElem?_eq_getElem hi'] at hr'
    unfold phaseRows at hr hr'
    obtain ⟨_, _, rfl⟩ := List.mem_map.mp hr
    obtain ⟨_, _, rfl⟩ := List.mem_map.mp hr'
    have := hsame.2.1
    simp only [colD, List.getD_cons_zero, List.getD_cons_succ] at this
    exact absurd (by exact_mod_cast this) hlt.ne

/-- rows of the result come, in order, from ten-column rows -/
theorem diffract_rows_from {c : Crystal} {b : Beam} {m : Motion} {d : PeaksDict} (h : diffractCore c b m = .ok d) :
    ∃ l : List (List ℝ), l.Sublist (allPhaseRows c b m) ∧
      d.peaks = l.mapIdx fun i r => extendRow c b m r ++ [fin (i : ℕ)] := by
  unfold diffractCore at h
  cases hp : computePeaks c b m with
  | error e => rw [hp] at h; cases h
  | ok rows =>
    rw [hp] at h
    obtain rfl := Except.ok.inj h
    obtain rfl := computePeaks_ok hp
    refine ⟨(allPhaseRows c b m).filter (illuminated b ∘ extendRow c b m), List.filter_sublist, ?_⟩
    simp only [List.filter_map]
    apply List.ext_getElem <;> simp

theorem allPhaseRows_length {c : Crystal} {b : Beam} {m : Motion} {r : List ℝ} (h : r ∈ allPhaseRows c b m) : r.length = 10 := by
  unfold allPhaseRows at h
  rw [List.mem_flatMap] at h
  obtain ⟨i, -, hi⟩ := h
  split at hi
  · unfold phaseRows at hi
    obtain ⟨s, -, rfl⟩ := List.mem_map.mp hi
    rfl
  · simp at hi

theorem extendRow_low {c : Crystal} {b : Beam} {m : Motion} {r : List ℝ} (hl : r.length = 10) {j : ℕ} (hj : j < 10) (s : List Fl) :
    (extendRow c b m r ++ s)[j]? = some (fin (colD r j)) := by
  unfold extendRow
  rw [List.append_assoc, List.getElem?_append_left (by simp [hl, hj]), List.getElem?_map]
  rw [List.getElem?_eq_getElem (by omega)]
  simp [colD, List.getD_eq_getElem?_getD, List.getElem?_eq_getElem (show j < r.length by omega)]

theorem extendRow_G {c : Crystal} {b : Beam} {m : Motion} {r : List ℝ} (hl : r.length = 10) (s : List Fl) :
    (extendRow c b m r ++ s)[10]? = some (fin (m.rotate1 ⟨colD r 7, colD r 8, colD r 9⟩ (colD r 6)).x) ∧
    (extendRow c b m r ++ s)[11]? = some (fin (m.rotate1 ⟨colD r 7, colD r 8, colD r 9⟩ (colD r 6)).y) ∧
    (extendRow c b m r ++ s)[12]? = some (fin (m.rotate1 ⟨colD r 7, colD r 8, colD r 9⟩ (colD r 6)).z) := by
  unfold extendRow
  simp only [List.append_assoc]
  refine ⟨?_, ?_, ?_⟩ <;> rw [List.getElem?_append_right (by simp [hl])] <;> simp [hl]

/-- C03 (partial): two reported peaks of one element and plane have different times, unless the diffraction vector touches
the Ewald sphere at that time (its component along the beam of the velocity `axis × G` vanishes).  Missing for the full
property: such grazing events are reported twice, see `C03_no_event_twice_fails`.  Assumes that no phase lists a plane
twice. -/
theorem C03_no_event_twice_partial (c : Crystal) (b : Beam) (a T o : V3) (w : ℝ) (m : Motion) (d : PeaksDict)
    (hm : Motion.new a w T o = .ok m) (ha : norm a = 1) (hc : ∀ ph ∈ c.phases, ph.Consistent)
    (hnd : ∀ ph ∈ c.phases, ph.miller.Nodup) (hd : diffractCore c b m = .ok d)
    (i j : ℕ) (hij : i < j) (r r' : List Fl) (hi : d.peaks[i]? = some r) (hj : d.peaks[j]? = some r')
    (g p t : Fl) (hkl : V3)
    (h1 : Has d.columns r "grain_index" g ∧ Has d.columns r' "grain_index" g)
    (h2 : Has d.columns r "phase_number" p ∧ Has d.columns r' "phase_number" p)
    (h3 : HasV d.columns r "h" "k" "l" hkl ∧ HasV d.columns r' "h" "k" "l" hkl)
    (h4 : Has d.columns r "diffraction_times" t ∧ Has d.columns r' "diffraction_times" t)
    (G : V3) (hG : HasV d.columns r "Gx" "Gy" "Gz" G) :
    dot b.waveVector (cross a G) = 0 := by
  obtain ⟨rfl, hw0, hw1, -⟩ := Motion.new_ok hm
  have h1' : nsq a = 1 := norm_eq_one.mp ha
  rw [diffract_columns hd] at h1 h2 h3 h4 hG
  obtain ⟨l, hsub, hpk⟩ := diffract_rows_from hd
  have hpw := (allPhaseRows_pairwise (c := c) (b := b) (m := ⟨a, w, T, o⟩) h1' hw0 hc hnd).sublist hsub
  rw [hpk, List.getElem?_mapIdx, Option.map_eq_some_iff] at hi hj
  obtain ⟨r0, hr0, rfl⟩ := hi
  obtain ⟨r1, hr1, rfl⟩ := hj
  have hl0 : r0.length = 10 := allPhaseRows_length (hsub.subset (List.mem_of_getElem? hr0))
  have hl1 : r1.length = 10 := allPhaseRows_length (hsub.subset (List.mem_of_getElem? hr1))
  obtain ⟨b0, e0⟩ := List.getElem?_eq_some_iff.mp hr0
  obtain ⟨b1, e1⟩ := List.getElem?_eq_some_iff.mp hr1
  have key := List.pairwise_iff_getElem.mp hpw i j b0 b1 hij
  rw [e0, e1] at key
  have low : ∀ (nm : String) (q : ℕ) (hq : q < 10) (v : Fl), peakColumns[q]? = some nm →
      Has peakColumns (extendRow c b ⟨a, w, T, o⟩ r0 ++ [fin (i : ℕ)]) nm v →
      Has peakColumns (extendRow c b ⟨a, w, T, o⟩ r1 ++ [fin (j : ℕ)]) nm v → colD r0 q = colD r1 q := by
    intro nm q hq v hn hA hB
    rw [has_iff q hn, extendRow_low hl0 hq] at hA
    rw [has_iff q hn, extendRow_low hl1 hq] at hB
    have := hA.trans hB.symm
    simpa using this
  have hT := key ⟨low _ 0 (by norm_num) _ rfl h1.1 h1.2, low _ 1 (by norm_num) _ rfl h2.1 h2.2,
    low _ 2 (by norm_num) _ rfl h3.1.1 h3.2.1, low _ 3 (by norm_num) _ rfl h3.1.2.1 h3.2.2.1,
    low _ 4 (by norm_num) _ rfl h3.1.2.2 h3.2.2.2, low _ 6 (by norm_num) _ rfl h4.1 h4.2⟩
  obtain ⟨g1, g2, g3⟩ := extendRow_G (c := c) (b := b) (m := ⟨a, w, T, o⟩) hl0 [fin (i : ℕ)]
  have hx := (has_iff 10 rfl).mp hG.1
  have hy := (has_iff 11 rfl).mp hG.2.1
  have hz := (has_iff 12 rfl).mp hG.2.2
  rw [g1] at hx; rw [g2] at hy; rw [g3] at hz
  have hGe : G = Motion.rotate1 ⟨a, w, T, o⟩ ⟨colD r0 7, colD r0 8, colD r0 9⟩ (colD r0 6) := by
    ext
    · simpa using hx.symm
    · simpa using hy.symm
    · simpa using hz.symm
  rw [hGe]; exact hT

/-- For an axis orthogonal to the beam, a peak reported twice never has a finite Lorentz factor. -/
theorem C03_duplicates_have_no_finite_lorentz (k G a : V3) (ha : norm a = 1) (hk : k ≠ 0) (hel : norm (k + G) = norm k)
    (hak : dot a k = 0) (ht : dot k (cross a G) = 0) : ¬ Fl.IsFinite (lorentz k (k + G) a) := by
  obtain ⟨g1, g2, g3⟩ := C17_lorentz k (k + G) a ha hk hel
  by_cases hb : k + G = -k
  · rw [g1 hb]; simp
  by_cases hcond : (angle k (k + G) / 2 < deg (1/2) ∨ angle a (perp k (k + G)) < deg (1/2) ∨
      deg (180 - 1/2) < angle a (perp k (k + G)))
  · rw [g2 hb hcond]; simp
  · obtain ⟨L, -, hL1, -, hL⟩ := g3 hb hcond
    have h0 : dot k (cross a (k + G)) = 0 := by
      have : dot k (cross a (k + G)) = dot k (cross a G) := by
        simp only [V3.dot, V3.cross, V3.add_x, V3.add_y, V3.add_z]; ring
      rw [this, ht]
    have := hL hak
    rw [h0, abs_zero, div_zero] at this
    linarith

/-- the grazing example has two rows, so the hypotheses about two rows can be met; and it is grazing as the theorem says -/
example : dot (⟨1, 0, 0⟩ : V3) (cross ⟨0, 0, 1⟩ (Spec.rotate ⟨0, 0, 1⟩ (2 * Real.arctan (1/2)) ⟨-3/5, 4/5, 1⟩)) = 0 := by
  have hc : Real.cos (2 * Real.arctan (1/2)) = 3/5 := by
    rw [Real.cos_two_mul, Real.cos_sq_arctan]; norm_num
  have h6 : Real.sin (Real.arctan (1/2)) = 1/2 * Real.cos (Real.arctan (1/2)) := by
    have := Real.tan_arctan (1/2)
    rw [Real.tan_eq_sin_div_cos, div_eq_iff (Real.cos_arctan_pos _).ne'] at this
    exact this
  have hs : Real.sin (2 * Real.arctan (1/2)) = 4/5 := by
    rw [Real.sin_two_mul, h6]
    have := Real.cos_sq_arctan (1/2)
    nlinarith
  simp only [Spec.rotate, V3.dot, V3.cross, hc, hs, V3.add_x, V3.add_y, V3.add_z, V3.smul_x, V3.smul_y, V3.smul_z]; norm_num

end XRD
