import Verif.Lemmas.Laue

/-! Lemmas about the assembly of the peaks table. -/

namespace XRD
open V3 M3 Fl

theorem filter_zip_mask {α : Type} (g : ℝ → Bool) : ∀ (A : List α) (f : List ℝ), A.length = f.length →
    ((A.zip (f.map g)).filter (·.2)).map (·.1) = ((A.zip f).filter (fun x => g x.2)).map (·.1) ∧
    ((f.zip (f.map g)).filter (·.2)).map (·.1) = ((A.zip f).filter (fun x => g x.2)).map (·.2) := by
  intro A
  induction A with
  | nil => intro f h; have : f = [] := by simpa using h.symm
           subst this; simp
  | cons a A ih =>
    intro f h
    cases f with
    | nil => simp at h
    | cons v f =>
      obtain ⟨h1, h2⟩ := ih f (by simpa using h)
      constructor
      · simp only [List.map_cons, List.zip_cons_cons, List.filter_cons]
        cases hg : g v <;> simp [h1]
      · simp only [List.map_cons, List.zip_cons_cons, List.filter_cons]
        cases hg : g v <;> simp [h2]

/-- A plane `n` of a phase is usable: either no structure factors are known (weight 1) or its squared modulus exceeds
`1e-6` and is the weight. -/
def UsablePlane (ph : Phase) (n : ℕ) (hkl : HKL) (w : ℝ) : Prop :=
  ph.miller[n]? = some hkl ∧
  match ph.structureFactors with
  | none => w = 1
  | some sf => ∃ F, sf[n]? = some F ∧ w = F.1 ^ 2 + F.2 ^ 2 ∧ w > 1 / 10 ^ 6

/-- A phase whose structure factor table (if any) has one entry per Miller index. -/
def Phase.Consistent (ph : Phase) : Prop := ∀ sf, ph.structureFactors = some sf → sf.length = ph.miller.length

theorem activePlanes_lengths (ph : Phase) (hc : ph.Consistent) : (activePlanes ph).2.length = (activePlanes ph).1.length := by
  unfold activePlanes
  cases h : ph.structureFactors with
  | none => simp
  | some sf =>
    have hl := hc sf h
    have := filter_zip_mask (fun v => decide (v > 1 / 10 ^ 6)) ph.miller (sf.map fun c => c.1 ^ 2 + c.2 ^ 2) (by simp [hl])
    simp only [this.1, this.2, List.length_map]

theorem activePlanes_sound (ph : Phase) (hc : ph.Consistent) {p : ℕ} {hkl : HKL} {w : ℝ}
    (h1 : (activePlanes ph).1[p]? = some hkl) (h2 : (activePlanes ph).2[p]? = some w) : ∃ n, UsablePlane ph n hkl w := by
  unfold activePlanes at h1 h2
  unfold UsablePlane
  cases h : ph.structureFactors with
  | none =>
    rw [h] at h1 h2
    simp only at h1 h2
    refine ⟨p, h1, ?_⟩
    simp only [List.getElem?_map, Option.map_eq_some_iff] at h2
    obtain ⟨_, _, h⟩ := h2; exact h.symm
  | some sf =>
    rw [h] at h1 h2
    simp only at h1 h2
    have hl := hc sf h
    have hz := filter_zip_mask (fun v => decide (v > 1 / 10 ^ 6)) ph.miller (sf.map fun c => c.1 ^ 2 + c.2 ^ 2) (by simp [hl])
    rw [hz.1, List.getElem?_map, Option.map_eq_some_iff] at h1
    rw [hz.2, List.getElem?_map, Option.map_eq_some_iff] at h2
    obtain ⟨x, hx, rfl⟩ := h1
    obtain ⟨y, hy, rfl⟩ := h2
    rw [hx] at hy
    obtain rfl := Option.some.inj hy
    have hm := List.mem_of_getElem? hx
    rw [List.mem_filter] at hm
    obtain ⟨hm1, hm2⟩ := hm
    obtain ⟨n, hn, hnx⟩ := List.mem_iff_getElem.mp hm1
    have hn' := hn
    rw [List.length_zip] at hn'
    rw [List.getElem_zip] at hnx
    have hn1 : n < ph.miller.length := lt_of_lt_of_le hn' (Nat.min_le_left _ _)
    have hn2 : n < sf.length := by rw [hl]; exact hn1
    refine ⟨n, ?_, sf[n], List.getElem?_eq_getElem hn2, ?_, ?_⟩
    · rw [List.getElem?_eq_getElem hn1, ← hnx]
    · rw [← hnx]; simp
    · exact of_decide_eq_true hm2

theorem activePlanes_complete (ph : Phase) (hc : ph.Consistent) {n : ℕ} {hkl : HKL} {w : ℝ} (hu : UsablePlane ph n hkl w) :
    ∃ p : ℕ, (activePlanes ph).1[p]? = some hkl ∧ (activePlanes ph).2[p]? = some w := by
  unfold activePlanes
  unfold UsablePlane at hu
  cases h : ph.structureFactors with
  | none =>
    rw [h] at hu
    refine ⟨n, hu.1, ?_⟩
    simp only [List.getElem?_map, hu.1, Option.map_some]; rw [hu.2]
  | some sf =>
    rw [h] at hu
    obtain ⟨hm, F, hF, hw, hgt⟩ := hu
    have hl := hc sf h
    have hz := filter_zip_mask (fun v => decide (v > 1 / 10 ^ 6)) ph.miller (sf.map fun c => c.1 ^ 2 + c.2 ^ 2) (by simp [hl])
    simp only [hz.1, hz.2, List.getElem?_map, Option.map_eq_some_iff]
    have hmem : (hkl, w) ∈ (ph.miller.zip (sf.map fun c => c.1 ^ 2 + c.2 ^ 2)).filter
        (fun x => decide (x.2 > 1 / 10 ^ 6)) := by
      rw [List.mem_filter]
      refine ⟨?_, by simpa using hgt⟩
      obtain ⟨hn1, e1⟩ := List.getElem?_eq_some_iff.mp hm
      obtain ⟨hn2, e2⟩ := List.getElem?_eq_some_iff.mp hF
      rw [List.mem_iff_getElem]
      refine ⟨n, by simp [hn1, hn2], ?_⟩
      rw [List.getElem_zip]; simp [e1, e2, hw]
    obtain ⟨p, hp, hpe⟩ := List.mem_iff_getElem.mp hmem
    exact ⟨p, ⟨_, List.getElem?_eq_some_iff.mpr ⟨hp, hpe⟩, rfl⟩, ⟨_, List.getElem?_eq_some_iff.mpr ⟨hp, hpe⟩, rfl⟩⟩

theorem mem_grainIndices {pm : List ℝ} {i e : ℕ} : e ∈ grainIndices pm i ↔ pm[e]? = some (i : ℝ) := by
  unfold grainIndices
  simp only [List.mem_filter, List.mem_range, decide_eq_true_eq]
  constructor
  · rintro ⟨h1, h2⟩
    rw [List.getElem?_eq_getElem h1]
    rw [List.getD_eq_getElem?_getD, List.getElem?_eq_getElem h1] at h2
    exact congrArg some h2
  · intro h
    obtain ⟨h1, h2⟩ := List.getElem?_eq_some_iff.mp h
    exact ⟨h1, by rw [List.getD_eq_getElem?_getD, h]; rfl⟩

/-- The Laue coefficients used for one beam and motion. -/
noncomputable def solsFor (b : Beam) (m : Motion) (G0 : List (List V3)) : List LaueSol :=
  laueSolutions G0 (rho0Factor b.waveVector m.axis) (rho1Factor b.waveVector m.axis) (rho2Factor b.waveVector m.axis) m.angle

/-- One reported or potential reflection. -/
structure Reflection (c : Crystal) (e i : ℕ) (ph : Phase) (n : ℕ) (hkl : HKL) (w : ℝ) : Prop where
  inPhase : c.phaseMap[e]? = some (i : ℝ)
  phase : c.phases[i]? = some ph
  usable : UsablePlane ph n hkl w

/-- Undiffracted scattering vector of an element and plane. -/
def Crystal.G0 (c : Crystal) (e : ℕ) (hkl : HKL) : V3 := getG (c.orientation.getD e 0) (c.eB.getD e 0) hkl.toV

/-- ten-column row of one reflection at time `t` -/
noncomputable def row10 (c : Crystal) (e i : ℕ) (hkl : HKL) (w t : ℝ) : List ℝ :=
  [(e : ℝ), (i : ℝ), hkl.h, hkl.k, hkl.l, w, t, (c.G0 e hkl).x, (c.G0 e hkl).y, (c.G0 e hkl).z]

/-- the time `t` is found by one of the two branches for the vector `G` -/
def Found (b : Beam) (m : Motion) (G : V3) (t : ℝ) : Prop :=
  keepTime (laueTime (laueRoots (rho0Factor b.waveVector m.axis) (rho1Factor b.waveVector m.axis)
    (rho2Factor b.waveVector m.axis) G).1 m.angle) = some t ∨
  keepTime (laueTime (laueRoots (rho0Factor b.waveVector m.axis) (rho1Factor b.waveVector m.axis)
    (rho2Factor b.waveVector m.axis) G).2 m.angle) = some t

theorem mem_laueSolutions {b : Beam} {m : Motion} {G0 : List (List V3)} {s : LaueSol} :
    s ∈ laueSolutions G0 (rho0Factor b.waveVector m.axis) (rho1Factor b.waveVector m.axis)
      (rho2Factor b.waveVector m.axis) m.angle ↔
    ∃ row, G0[s.grain]? = some row ∧ row[s.plane]? = some s.G ∧ Found b m s.G s.time := by
  unfold laueSolutions Found
  rw [List.mem_append, mem_laueBranch, mem_laueBranch]
  constructor
  · rintro (⟨row, h1, h2, h3⟩ | ⟨row, h1, h2, h3⟩)
    · exact ⟨row, h1, h2, Or.inl h3⟩
    · exact ⟨row, h1, h2, Or.inr h3⟩
  · rintro ⟨row, h1, h2, h3 | h3⟩
    · exact Or.inl ⟨row, h1, h2, h3⟩
    · exact Or.inr ⟨row, h1, h2, h3⟩

/-- Characterisation of all ten-column rows. -/
theorem mem_allPhaseRows {c : Crystal} {b : Beam} {m : Motion} (hc : ∀ ph ∈ c.phases, ph.Consistent) {r : List ℝ} :
    r ∈ allPhaseRows c b m ↔ ∃ e i ph n hkl w t, Reflection c e i ph n hkl w ∧ Found b m (c.G0 e hkl) t ∧
      r = row10 c e i hkl w t := by
  unfold allPhaseRows
  simp only [List.mem_flatMap, List.mem_range]
  constructor
  · rintro ⟨i, hi, hr⟩
    rw [List.getElem?_eq_getElem hi] at hr
    simp only at hr
    set ph := c.phases[i] with hph
    have hcon := hc ph (List.getElem_mem _)
    unfold phaseRows at hr
    simp only [List.mem_map] at hr
    obtain ⟨s, hs, rfl⟩ := hr
    obtain ⟨row, h1, h2, h3⟩ := mem_laueSolutions.mp hs
    rw [List.getElem?_map, Option.map_eq_some_iff] at h1
    obtain ⟨e, he, rfl⟩ := h1
    rw [List.getElem?_map, Option.map_eq_some_iff] at h2
    obtain ⟨hkl, hk, hG⟩ := h2
    have hp := (List.getElem?_eq_some_iff.mp hk).1
    have hp2 : s.plane < (activePlanes ph).2.length := by rw [activePlanes_lengths ph hcon]; exact hp
    obtain ⟨n, hu⟩ := activePlanes_sound ph hcon hk (List.getElem?_eq_getElem hp2)
    refine ⟨e, i, ph, n, hkl, (activePlanes ph).2[s.plane], s.time,
      ⟨mem_grainIndices.mp (List.mem_of_getElem? he), List.getElem?_eq_getElem hi, hu⟩, ?_, ?_⟩
    · unfold Crystal.G0; rw [hG]; exact h3
    · unfold row10 Crystal.G0
      rw [hG]
      simp [List.getD_eq_getElem?_getD, he, hk, List.getElem?_eq_getElem hp2, HKL.toV]
  · rintro ⟨e, i, ph, n, hkl, w, t, ⟨h1, h2, h3⟩, h4, rfl⟩
    have hi := (List.getElem?_eq_some_iff.mp h2).1
    have hcon := hc ph (List.mem_of_getElem? h2)
    refine ⟨i, hi, ?_⟩
    rw [h2]; simp only
    obtain ⟨p, hp1, hp2⟩ := activePlanes_complete ph hcon h3
    obtain ⟨g, hg, hge⟩ := List.mem_iff_getElem.mp (mem_grainIndices.mpr h1)
    have hg' : (grainIndices c.phaseMap i)[g]? = some e := List.getElem?_eq_some_iff.mpr ⟨hg, hge⟩
    unfold phaseRows
    simp only [List.mem_map]
    refine ⟨⟨g, p, t, c.G0 e hkl⟩, ?_, ?_⟩
    · rw [mem_laueSolutions]
      refine ⟨_, by rw [List.getElem?_map, hg']; rfl, ?_, h4⟩
      simp only [List.getElem?_map, hp1, Option.map_some]; rfl
    · unfold row10
      simp [List.getD_eq_getElem?_getD, hg', hp1, hp2, HKL.toV]

/-- 24-column row of one reflection at time `t`. -/
noncomputable def row24 (c : Crystal) (b : Beam) (m : Motion) (e i : ℕ) (hkl : HKL) (w t : ℝ) : List Fl :=
  let G := m.rotate1 (c.G0 e hkl) t
  let K := G + b.waveVector
  let src := m.call1 (c.sphereCentroids.getD e 0) t
  let vol := c.volumes.getD e 0
  [fin e, fin i, fin hkl.h, fin hkl.k, fin hkl.l, fin w, fin t,
    fin (c.G0 e hkl).x, fin (c.G0 e hkl).y, fin (c.G0 e hkl).z,
    fin G.x, fin G.y, fin G.z, fin K.x, fin K.y, fin K.z, fin src.x, fin src.y, fin src.z,
    lorentz b.waveVector K m.axis, polarization K b.polarization, fin vol, twoTheta b.waveVector K,
    match twoTheta b.waveVector K with | fin x => scherrer vol x b.wavelength | _ => nan]

theorem extendRow_row10 (c : Crystal) (b : Beam) (m : Motion) (e i : ℕ) (hkl : HKL) (w t : ℝ) :
    extendRow c b m (row10 c e i hkl w t) = row24 c b m e i hkl w t := by
  unfold extendRow row24 row10
  simp [colD]
  rfl

theorem computePeaks_ok {c : Crystal} {b : Beam} {m : Motion} {rows : List (List Fl)} (h : computePeaks c b m = .ok rows) :
    rows = (allPhaseRows c b m).map (extendRow c b m) := by
  unfold computePeaks at h
  split_ifs at h with h1
  simp only at h
  split_ifs at h with h2
  exact (Except.ok.inj h).symm

theorem sourceOf_row24 (c : Crystal) (b : Beam) (m : Motion) (e i : ℕ) (hkl : HKL) (w t : ℝ) :
    sourceOf (row24 c b m e i hkl w t) = some (m.call1 (c.sphereCentroids.getD e 0) t) := by
  simp [sourceOf, row24]

theorem illuminated_row24 (c : Crystal) (b : Beam) (m : Motion) (e i : ℕ) (hkl : HKL) (w t : ℝ) :
    illuminated b (row24 c b m e i hkl w t) = true ↔ b.contains (m.call1 (c.sphereCentroids.getD e 0) t) := by
  simp [illuminated, sourceOf_row24]

/-- Characterisation of the rows returned by `diffract`. -/
theorem mem_diffract {c : Crystal} {b : Beam} {m : Motion} {d : PeaksDict} (hc : ∀ ph ∈ c.phases, ph.Consistent)
    (h : diffractCore c b m = .ok d) {row : List Fl} :
    row ∈ d.peaks → ∃ e i ph n hkl w t idx, Reflection c e i ph n hkl w ∧ Found b m (c.G0 e hkl) t ∧
      b.contains (m.call1 (c.sphereCentroids.getD e 0) t) ∧ row = row24 c b m e i hkl w t ++ [fin (idx : ℕ)] := by
  unfold diffractCore at h
  cases hp : computePeaks c b m with
  | error e => rw [hp] at h; cases h
  | ok rows =>
    rw [hp] at h
    obtain rfl := Except.ok.inj h
    obtain rfl := computePeaks_ok hp
    intro hrow
    simp only [List.mem_mapIdx] at hrow
    obtain ⟨idx, hidx, rfl⟩ := hrow
    have hm := List.getElem_mem hidx
    rw [List.mem_filter, List.mem_map] at hm
    obtain ⟨⟨r, hr, hre⟩, hill⟩ := hm
    obtain ⟨e, i, ph, n, hkl, w, t, h1, h2, rfl⟩ := (mem_allPhaseRows hc).mp hr
    rw [extendRow_row10] at hre
    rw [← hre] at hill
    refine ⟨e, i, ph, n, hkl, w, t, idx, h1, h2, (illuminated_row24 ..).mp hill, ?_⟩
    rw [← hre]

theorem mem_diffract_of {c : Crystal} {b : Beam} {m : Motion} {d : PeaksDict} (hc : ∀ ph ∈ c.phases, ph.Consistent)
    (h : diffractCore c b m = .ok d) {e i : ℕ} {ph : Phase} {n : ℕ} {hkl : HKL} {w t : ℝ}
    (h1 : Reflection c e i ph n hkl w) (h2 : Found b m (c.G0 e hkl) t)
    (h3 : b.contains (m.call1 (c.sphereCentroids.getD e 0) t)) :
    ∃ idx : ℕ, row24 c b m e i hkl w t ++ [fin idx] ∈ d.peaks := by
  unfold diffractCore at h
  cases hp : computePeaks c b m with
  | error e => rw [hp] at h; cases h
  | ok rows =>
    rw [hp] at h
    obtain rfl := Except.ok.inj h
    obtain rfl := computePeaks_ok hp
    have hm : row24 c b m e i hkl w t ∈ ((allPhaseRows c b m).map (extendRow c b m)).filter (illuminated b) := by
      rw [List.mem_filter, List.mem_map]
      refine ⟨⟨row10 c e i hkl w t, (mem_allPhaseRows hc).mpr ⟨e, i, ph, n, hkl, w, t, h1, h2, rfl⟩,
        extendRow_row10 ..⟩, (illuminated_row24 ..).mpr h3⟩
    obtain ⟨idx, hidx, he⟩ := List.mem_iff_getElem.mp hm
    refine ⟨idx, ?_⟩
    simp only [List.mem_mapIdx]
    exact ⟨idx, hidx, by rw [he]⟩

theorem diffract_columns {c : Crystal} {b : Beam} {m : Motion} {d : PeaksDict}
    (h : diffractCore c b m = .ok d) : d.columns = peakColumns := by
  unfold diffractCore at h
  cases hp : computePeaks c b m with
  | error e => rw [hp] at h; cases h
  | ok rows => rw [hp] at h; obtain rfl := Except.ok.inj h; rfl

end XRD
