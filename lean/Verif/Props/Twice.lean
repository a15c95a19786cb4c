import Verif.Props.EndToEnd
import Verif.Lemmas.PermRel
import Verif.Lemmas.SubSample

/-! Property C113: a plane of an element is reported at most twice, and the table of peaks has a bound known before the computation. -/

namespace XRD
open V3 M3 Fl Spec
open scoped Classical

theorem reflections_sublist (ph : Phase) : ∃ l : List HKL, (reflections ph).map (·.1) = l ∧ l.Sublist ph.miller := by
  refine ⟨_, rfl, ?_⟩
  unfold reflections
  cases ph.structureFactors with
  | none => simp [Function.comp_def]
  | some sf =>
    simp only
    generalize sf.map (fun F => F.1 ^ 2 + F.2 ^ 2) = f
    induction ph.miller generalizing f with
    | nil => simp
    | cons a l ih =>
      cases f with
      | nil => simp
      | cons v f => simpa using ih f

theorem elemRows_length_le (pick : Fl × Fl → Fl) (c : Crystal) (b : Beam) (m : Motion) (i : ℕ) (ph : Phase) (e : ℕ) :
    (elemRows pick c b m i ph e).length ≤ ph.miller.length := by
  rw [elemRows_planes]
  obtain ⟨l, hl, hs⟩ := reflections_sublist ph
  calc _ ≤ _ := List.length_filterMap_le _ _
    _ ≤ (reflections ph).length := List.length_filter_le _ _
    _ = l.length := by rw [← hl, List.length_map]
    _ ≤ _ := hs.length_le

/-- the ten-column row belongs to the element, phase and plane -/
noncomputable def rowOf (e i : ℕ) (hkl : HKL) (r : List ℝ) : Bool :=
  decide (colD r 0 = e ∧ colD r 1 = i ∧ colD r 2 = hkl.h ∧ colD r 3 = hkl.k ∧ colD r 4 = hkl.l)

theorem planeRow_of {pick : Fl × Fl → Fl} {c : Crystal} {b : Beam} {m : Motion} {i e e' i' : ℕ} {hkl : HKL} {r : HKL × ℝ}
    (h : ((planeRow pick c b m i e r).map (rowOf e' i' hkl)).getD false = true) : e = e' ∧ i = i' ∧ r.1 = hkl := by
  cases hr : planeRow pick c b m i e r with
  | none => rw [hr] at h; simp at h
  | some row =>
    rw [hr] at h
    unfold planeRow at hr
    obtain ⟨t, -, rfl⟩ := Option.map_eq_some_iff.mp hr
    simp only [Option.map_some, Option.getD_some, rowOf, colD, decide_eq_true_eq] at h
    obtain ⟨⟨a1, a2, a3⟩, w⟩ := r
    obtain ⟨b1, b2, b3⟩ := hkl
    simpa [HKL.toV] using h

theorem elemRows_count_le (pick : Fl × Fl → Fl) (c : Crystal) (b : Beam) (m : Motion) (i : ℕ) (ph : Phase) (e e' i' : ℕ) (hkl : HKL) :
    (elemRows pick c b m i ph e).countP (rowOf e' i' hkl) ≤ if e = e' ∧ i = i' then ph.miller.count hkl else 0 := by
  rw [elemRows_planes, List.countP_filterMap]
  obtain ⟨l, hl, hs⟩ := reflections_sublist ph
  by_cases he : e = e' ∧ i = i'
  · rw [if_pos he]
    calc _ ≤ _ := (List.filter_sublist).countP_le
      _ ≤ (reflections ph).countP (fun r => decide (r.1 = hkl)) :=
        List.countP_mono_left fun r _ hr => by simpa using (planeRow_of hr).2.2
      _ = l.countP (fun r => decide (r = hkl)) := by rw [← hl, List.countP_map]; rfl
      _ ≤ ph.miller.countP (fun r => decide (r = hkl)) := hs.countP_le
      _ = _ := by unfold List.count; congr 1
  · rw [if_neg he, Nat.le_zero, List.countP_eq_zero]
    intro r _ hr
    obtain ⟨h1, h2, -⟩ := planeRow_of hr
    exact he ⟨h1, h2⟩

theorem sum_ite_nodup_le (l : List ℕ) (hl : l.Nodup) (e k : ℕ) (f : ℕ → ℕ) (hf : ∀ g ∈ l, f g ≤ if g = e then k else 0) :
    (l.map f).sum ≤ k := by
  have : (l.map f).sum ≤ if e ∈ l then k else 0 := by
    induction l with
    | nil => simp
    | cons a l ih =>
      rw [List.nodup_cons] at hl
      have h1 := hf a List.mem_cons_self
      have h2 := ih hl.2 fun g hg => hf g (List.mem_cons_of_mem _ hg)
      rw [List.map_cons, List.sum_cons]
      by_cases hae : a = e
      · subst hae
        rw [if_neg hl.1] at h2
        simp at h1 ⊢; omega
      · rw [if_neg hae] at h1
        have : (e ∈ a :: l) = (e ∈ l) := by simp [Ne.symm hae]
        simp only [this]
        omega
  split_ifs at this <;> omega

theorem phaseRows_count_le (c : Crystal) (b : Beam) (m : Motion) (i : ℕ) (ph : Phase) (e i' : ℕ) (hkl : HKL) :
    (phaseRows c b m i ph).countP (rowOf e i' hkl) ≤ if i = i' then 2 * ph.miller.count hkl else 0 := by
  rw [phaseRows_elems, List.countP_append, List.countP_flatMap, List.countP_flatMap]
  by_cases hi : i = i'
  · have := fun pick => sum_ite_nodup_le _ (grainIndices_nodup c.phaseMap i) e (ph.miller.count hkl)
      (List.countP (rowOf e i' hkl) ∘ elemRows pick c b m i ph) fun g _ => by
        have := elemRows_count_le pick c b m i ph g e i' hkl
        simpa [hi] using this
    have h1 := this Prod.fst
    have h2 := this Prod.snd
    rw [if_pos hi]; omega
  · have := fun pick => sum_ite_nodup_le _ (grainIndices_nodup c.phaseMap i) e 0
      (List.countP (rowOf e i' hkl) ∘ elemRows pick c b m i ph) fun g _ => by
        have := elemRows_count_le pick c b m i ph g e i' hkl
        simpa [hi] using this
    have h1 := this Prod.fst
    have h2 := this Prod.snd
    rw [if_neg hi]; omega

theorem allPhaseRows_count_le (c : Crystal) (b : Beam) (m : Motion) (e i : ℕ) (ph : Phase) (hph : c.phases[i]? = some ph) (hkl : HKL) :
    (allPhaseRows c b m).countP (rowOf e i hkl) ≤ 2 * ph.miller.count hkl := by
  unfold allPhaseRows
  rw [List.countP_flatMap]
  apply sum_ite_nodup_le _ List.nodup_range i
  intro g _
  simp only [Function.comp]
  cases hg : c.phases[g]? with
  | none => simp
  | some ph' =>
    simp only
    refine (phaseRows_count_le c b m g ph' e i hkl).trans ?_
    by_cases h : g = i
    · subst h
      rw [hg] at hph
      obtain rfl := Option.some.inj hph
      simp
    · simp [h]

theorem countP_mapIdx_le {α β : Type} (l : List α) (f : ℕ → α → β) (P : β → Bool) (Q : α → Bool) (h : ∀ j, ∀ a ∈ l, P (f j a) = true → Q a = true) :
    (l.mapIdx f).countP P ≤ l.countP Q := by
  rw [List.mapIdx_eq_zipIdx_map, List.countP_map]
  have : l.countP Q = l.zipIdx.countP (Q ∘ Prod.fst) := by
    conv_lhs => rw [← List.zipIdx_map_fst 0 l]
    rw [List.countP_map]
  rw [this]
  apply List.countP_mono_left
  rintro ⟨a, j⟩ hx hP
  exact h j a (List.fst_mem_of_mem_zipIdx hx) hP

/-- **C113** Whatever the crystal, the beam and the motion, a lattice plane of an element is reported at most twice for each time the
plane is listed in the phase. -/
theorem C113_twice_at_most (x : Xfab) (p : Polycrystal) (b : Beam) (m : Motion) (lo hi : ℝ) (det : Option Detector) (d : PeaksDict)
    (q : Polycrystal) (hd : p.diffract x b m lo hi det = .ok (d, q)) (e i : ℕ) (ph : Phase) (hph : q.phases[i]? = some ph) (hkl : HKL) :
    (d.peaks.filter fun row => decide (Has d.columns row "grain_index" (fin e) ∧ Has d.columns row "phase_number" (fin i) ∧
      HasV d.columns row "h" "k" "l" ⟨hkl.h, hkl.k, hkl.l⟩)).length ≤ 2 * ph.miller.count hkl := by
  obtain ⟨lo', hi', -, rfl, hc⟩ := Polycrystal.diffract_ok hd
  have hcol := diffract_columns hc
  rw [hcol, ← List.countP_eq_length_filter]
  refine le_trans ?_ (allPhaseRows_count_le (p.setupPhases x b.wavelength lo' hi').crystal b m e i ph hph hkl)
  unfold diffractCore at hc
  cases hp : computePeaks (p.setupPhases x b.wavelength lo' hi').crystal b m with
  | error e => rw [hp] at hc; cases hc
  | ok rows =>
    rw [hp] at hc
    obtain rfl := Except.ok.inj hc
    obtain rfl := computePeaks_ok hp
    refine (countP_mapIdx_le _ _ _ (fun row => decide (row[0]? = some (fin e) ∧ row[1]? = some (fin i) ∧ row[2]? = some (fin hkl.h) ∧
      row[3]? = some (fin hkl.k) ∧ row[4]? = some (fin hkl.l))) ?_).trans ?_
    · intro j row hrow hP
      obtain ⟨r, hr, rfl⟩ := List.mem_map.mp (List.mem_filter.mp hrow).1
      have hl : r.length = 10 := allPhaseRows_length hr
      match r, hl with
      | [a0, a1, a2, a3, a4, a5, a6, a7, a8, a9], _ =>
        simp only [decide_eq_true_eq] at hP ⊢
        obtain ⟨h0, h1, h2, h3, h4⟩ := hP
        have g0 := (has_iff 0 rfl).mp h0
        have g1 := (has_iff 1 rfl).mp h1
        have g2 := (has_iff 2 rfl).mp h2
        have g3 := (has_iff 3 rfl).mp h3
        have g4 := (has_iff 4 rfl).mp h4
        exact ⟨g0, g1, g2, g3, g4⟩
    · refine (List.filter_sublist.countP_le).trans ?_
      rw [List.countP_map]
      apply List.countP_mono_left
      intro r hr hP
      have hl : r.length = 10 := allPhaseRows_length hr
      match r, hl with
      | [a0, a1, a2, a3, a4, a5, a6, a7, a8, a9], _ =>
        simp only [Function.comp, extendRow, List.map_cons, List.cons_append, decide_eq_true_eq] at hP
        simp at hP
        simpa [rowOf, colD] using hP

/-- C113: the number of peaks is at most twice the sum, over the phases, of the number of elements of the phase times the number of its
listed planes. -/
theorem C113_table_size (x : Xfab) (p : Polycrystal) (b : Beam) (m : Motion) (lo hi : ℝ) (det : Option Detector) (d : PeaksDict)
    (q : Polycrystal) (hd : p.diffract x b m lo hi det = .ok (d, q)) :
    d.peaks.length ≤ 2 * (q.phases.zipIdx.map fun ph => q.phaseMap.count (ph.2 : ℝ) * ph.1.miller.length).sum := by
  obtain ⟨lo', hi', -, rfl, hc⟩ := Polycrystal.diffract_ok hd
  set c := (p.setupPhases x b.wavelength lo' hi').crystal with hcc
  have h1 : d.peaks.length ≤ (allPhaseRows c b m).length := by
    unfold diffractCore at hc
    cases hp : computePeaks c b m with
    | error e => rw [hp] at hc; cases hc
    | ok rows =>
      rw [hp] at hc
      obtain rfl := Except.ok.inj hc
      obtain rfl := computePeaks_ok hp
      simp only [List.length_mapIdx]
      exact (List.length_filter_le _ _).trans (by simp)
  refine h1.trans ?_
  have hg : ∀ i : ℕ, (grainIndices c.phaseMap i).length = c.phaseMap.count (i : ℝ) := by
    intro i
    unfold grainIndices List.count
    rw [← List.countP_eq_length_filter]
    have : c.phaseMap = (List.range c.phaseMap.length).map fun e => c.phaseMap.getD e 0 := by
      apply List.ext_getElem
      · simp
      · intro n a1 a2
        simp [List.getD_eq_getElem?_getD, List.getElem?_eq_getElem a1]
    conv_rhs => rw [this]
    rw [List.countP_map]
    congr 1
  have h2 : ∀ i ph, (phaseRows c b m i ph).length ≤ 2 * (c.phaseMap.count (i : ℝ) * ph.miller.length) := by
    intro i ph
    rw [phaseRows_elems, List.length_append, List.length_flatMap, List.length_flatMap, ← hg]
    have : ∀ pick, ((grainIndices c.phaseMap i).map fun a => (elemRows pick c b m i ph a).length).sum ≤
        (grainIndices c.phaseMap i).length * ph.miller.length := by
      intro pick
      refine (List.sum_le_card_nsmul _ ph.miller.length ?_).trans (by simp)
      intro n hn
      obtain ⟨a, -, rfl⟩ := List.mem_map.mp hn
      exact elemRows_length_le _ _ _ _ _ _ _
    have a1 := this Prod.fst
    have a2 := this Prod.snd
    omega
  have h3 : allPhaseRows c b m = c.phases.zipIdx.flatMap fun ph => phaseRows c b m ph.2 ph.1 := by
    unfold allPhaseRows
    rw [List.flatMap_def, List.flatMap_def]
    congr 1
    apply List.ext_getElem
    · simp
    · intro n a1 a2
      have hn : n < c.phases.length := by simpa using a1
      simp [List.getElem?_eq_getElem hn]
  rw [h3, List.length_flatMap]
  have : 2 * (c.phases.zipIdx.map fun ph => c.phaseMap.count (ph.2 : ℝ) * ph.1.miller.length).sum =
      (c.phases.zipIdx.map fun ph => 2 * (c.phaseMap.count (ph.2 : ℝ) * ph.1.miller.length)).sum := by
    rw [List.sum_map_mul_left]
  show _ ≤ 2 * (c.phases.zipIdx.map fun ph => c.phaseMap.count (ph.2 : ℝ) * ph.1.miller.length).sum
  rw [this]
  exact List.sum_le_sum fun a _ => h2 a.2 a.1

/-- The bound is met with equality: the scene of one element with one plane, seen tangentially, has two peaks. -/
example : ∃ (d : PeaksDict) (q : Polycrystal), scenePoly.diffract sceneX demoBeam demoZ 0 (Real.pi / 2) none = .ok (d, q) ∧
    q.phaseMap = [0] ∧ q.phases.map (fun ph => ph.miller) = [[⟨1, 0, 0⟩]] ∧ d.peaks.length = 2 := by
  have hs0 : Real.sin 0 ≤ Real.sqrt 2 / 2 := by rw [Real.sin_zero]; positivity
  have hs1 : Real.sqrt 2 / 2 ≤ Real.sin (Real.pi / 2) := by
    rw [Real.sin_pi_div_two, div_le_one (by norm_num), Real.sqrt_le_left (by norm_num)]; norm_num
  obtain ⟨d, hd, hcol, -, t, ht, hpk⟩ := tangent_scene 1 sceneB (sceneMesh.espherecentroids.getD 0 0) (scenePoly.meshVolumes.getD 0 0)
    ⟨[1, 1, 1, 90, 90, 90], "P1", none, [⟨1, 0, 0⟩], none⟩ rfl rfl demoZ rfl norm_ez rfl rfl scene_sphere scene_roots
  refine ⟨d, { scenePoly with phases := [⟨[1, 1, 1, 90, 90, 90], "P1", none, [⟨1, 0, 0⟩], none⟩] }, ?_, rfl, rfl, by rw [hpk]; rfl⟩
  unfold Polycrystal.diffract
  simp only [Polycrystal.limits]
  have hph : scenePoly.setupPhases sceneX demoBeam.wavelength 0 (Real.pi / 2) =
      { scenePoly with phases := [⟨[1, 1, 1, 90, 90, 90], "P1", none, [⟨1, 0, 0⟩], none⟩] } := by
    simp only [Polycrystal.setupPhases, scenePoly, polyOf, List.map]; rw [scene_setup 0 (Real.pi / 2) hs0 hs1]
  rw [hph]
  have hcr : Polycrystal.crystal { scenePoly with phases := [⟨[1, 1, 1, 90, 90, 90], "P1", none, [⟨1, 0, 0⟩], none⟩] } =
      ⟨.torch, [0], [⟨[1, 1, 1, 90, 90, 90], "P1", none, [⟨1, 0, 0⟩], none⟩], [1], [sceneB],
        [sceneMesh.espherecentroids.getD 0 0], [scenePoly.meshVolumes.getD 0 0]⟩ := rfl
  rw [hcr, hd]

end XRD
