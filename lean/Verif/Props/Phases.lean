import Verif.Props.SubSample

/-! Property C96: the order in which phases are listed, and phases no element uses, do not matter. -/

namespace XRD.Spec
open XRD

/-- The list `ps'` of phases and the numbers `map'` describe the same sample as `ps` and `map`: phase number `i` of `ps` is number
`σ i` of `ps'`, and the elements are relabelled accordingly; elements without a phase stay without one. -/
structure Relabelled (σ : ℕ → ℕ) (ps ps' : List Phase) (map map' : List ℝ) : Prop where
  inj : ∀ i < ps.length, ∀ j < ps.length, σ i = σ j → i = j
  phase : ∀ i < ps.length, ps'[σ i]? = ps[i]?
  elements : List.Forall₂ (fun v v' => (∃ i < ps.length, v = (i : ℝ) ∧ v' = (σ i : ℝ)) ∨
    ((∀ i < ps.length, v ≠ (i : ℝ)) ∧ ∀ k < ps'.length, v' ≠ (k : ℝ))) map map'

/-- `row'` is `row` with the phase number replaced, up to the running number -/
def SameButPhase (cols : List String) (σ : ℕ → ℕ) (row row' : List Fl) : Prop :=
  (∃ i : ℕ, Has cols row "phase_number" (.fin (i : ℝ)) ∧ Has cols row' "phase_number" (.fin (σ i : ℝ))) ∧
  ∀ name, name ≠ "phase_number" → name ≠ "peak_index" → ∀ v, Has cols row' name v ↔ Has cols row name v
end XRD.Spec

namespace XRD
open V3 M3 Fl Spec
open scoped Classical

variable {σ : ℕ → ℕ} {ps ps' : List Phase} {map map' : List ℝ}

theorem Spec.Relabelled.lt (h : Relabelled σ ps ps' map map') {i : ℕ} (hi : i < ps.length) : σ i < ps'.length := by
  have := h.phase i hi
  rw [List.getElem?_eq_getElem hi] at this
  exact (List.getElem?_eq_some_iff.mp this).1

theorem Spec.Relabelled.get (h : Relabelled σ ps ps' map map') (e : ℕ) :
    (∀ i < ps.length, map[e]? = some (i : ℝ) ↔ map'[e]? = some (σ i : ℝ)) ∧
    ∀ k < ps'.length, map'[e]? = some (k : ℝ) → ∃ i < ps.length, k = σ i := by
  have hget := List.forall₂_iff_get.mp h.elements
  by_cases he : e < map.length
  · have he' : e < map'.length := hget.1 ▸ he
    rw [List.getElem?_eq_getElem he, List.getElem?_eq_getElem he']
    have hr := hget.2 e he he'
    simp only [List.get_eq_getElem] at hr
    rcases hr with ⟨i, hi, e1, e2⟩ | ⟨h1, h2⟩
    · rw [e1, e2]
      simp only [Option.some.injEq, Nat.cast_inj]
      refine ⟨fun j hj => ⟨fun hh => by rw [hh], fun hh => h.inj i hi j hj hh⟩, fun k _ hk => ⟨i, hi, hk.symm⟩⟩
    · simp only [Option.some.injEq]
      refine ⟨fun i hi => ⟨fun hh => absurd hh (h1 i hi), fun hh => absurd hh (h2 _ (h.lt hi))⟩, fun k hk hh => absurd hh (h2 k hk)⟩
  · rw [List.getElem?_eq_none (by omega), List.getElem?_eq_none (by rw [← hget.1]; omega)]
    refine ⟨fun i hi => ?_, fun k hk hh => ?_⟩
    · simp
    · cases hh

theorem Spec.Relabelled.grains (h : Relabelled σ ps ps' map map') {i : ℕ} (hi : i < ps.length) :
    grainIndices map' (σ i) = grainIndices map i := by
  apply eq_of_increasing (List.pairwise_lt_range.filter _) (List.pairwise_lt_range.filter _)
  intro e
  have := (h.get e).1 i hi
  exact mem_grainIndices.trans (this.symm.trans mem_grainIndices.symm)

theorem Spec.Relabelled.unused (h : Relabelled σ ps ps' map map') {k : ℕ} (hk : k < ps'.length) (hn : ∀ i < ps.length, k ≠ σ i) :
    grainIndices map' k = [] := by
  rw [List.eq_nil_iff_forall_not_mem]
  intro e he
  obtain ⟨i, hi, e1⟩ := (h.get e).2 k hk (mem_grainIndices.mp he)
  exact hn i hi e1

theorem labStrainToB_nil (B : M3) : labStrainToB [] B = .ok [] := by
  unfold labStrainToB epsilonToBBatch
  rw [if_neg (by simp)]
  rfl

theorem relabel_eB {x : Xfab} {n : ℕ} {U S : List M3} (h : Relabelled σ ps ps' map map') (eB : List M3) :
    instantiateEB x n U S ps map = .ok eB ↔ instantiateEB x n U S ps' map' = .ok eB := by
  have hbad : (∃ i < ps.length, ∃ e ∈ grainIndices map i, n ≤ e) ↔ ∃ k < ps'.length, ∃ e ∈ grainIndices map' k, n ≤ e := by
    constructor
    · rintro ⟨i, hi, e, he, hn⟩
      exact ⟨σ i, h.lt hi, e, by rw [h.grains hi]; exact he, hn⟩
    · rintro ⟨k, hk, e, he, hn⟩
      obtain ⟨i, hi, rfl⟩ := (h.get e).2 k hk (mem_grainIndices.mp he)
      exact ⟨i, hi, e, by rw [← h.grains hi]; exact he, hn⟩
  have hok : (∃ eB, instantiateEB x n U S ps map = .ok eB) ↔ ∃ eB, instantiateEB x n U S ps' map' = .ok eB := by
    unfold instantiateEB
    by_cases hc : ∃ i < ps.length, ∃ e ∈ grainIndices map i, n ≤ e
    · rw [if_pos hc, if_pos (hbad.mp hc)]
    · rw [if_neg hc, if_neg (fun hh => hc (hbad.mpr hh)), eBLoop_ok, eBLoop_ok]
      simp only [Nat.zero_add]
      constructor
      · intro hall k ph hk
        have hk' := (List.getElem?_eq_some_iff.mp hk).1
        by_cases hu : ∃ i < ps.length, k = σ i
        · obtain ⟨i, hi, rfl⟩ := hu
          rw [h.grains hi]
          exact hall i ph (by rw [← h.phase i hi]; exact hk)
        · push Not at hu
          rw [h.unused hk' hu]
          exact ⟨[], labStrainToB_nil _⟩
      · intro hall i ph hi
        have hi' := (List.getElem?_eq_some_iff.mp hi).1
        rw [← h.grains hi']
        exact hall (σ i) ph (by rw [h.phase i hi']; exact hi)
  have huniq : ∀ a b, instantiateEB x n U S ps map = .ok a → instantiateEB x n U S ps' map' = .ok b → a = b := by
    intro a b ha hb
    obtain ⟨a1, a2, a3⟩ := eB_value ha
    obtain ⟨b1, b2, b3⟩ := eB_value hb
    apply List.ext_getElem?
    intro e
    by_cases he : e < n
    · by_cases hp : ∃ i < ps.length, map[e]? = some (i : ℝ)
      · obtain ⟨i, hi, hm⟩ := hp
        obtain ⟨B, hB, hB1⟩ := a3 i ps[i] (List.getElem?_eq_getElem hi) e he hm
        obtain ⟨B', hB', hB1'⟩ := b3 (σ i) ps[i] (by rw [h.phase i hi, List.getElem?_eq_getElem hi]) e he (((h.get e).1 i hi).mp hm)
        rw [hB] at hB'
        obtain rfl := Except.ok.inj hB'
        rw [hB1, hB1']
      · push Not at hp
        rw [a2 e he hp, b2 e he]
        intro k hk hh
        obtain ⟨i, hi, rfl⟩ := (h.get e).2 k hk hh
        exact hp i hi (((h.get e).1 i hi).mpr hh)
    · rw [List.getElem?_eq_none (by omega), List.getElem?_eq_none (by omega)]
  constructor
  · intro ha
    obtain ⟨b, hb⟩ := hok.mp ⟨_, ha⟩
    rw [huniq _ _ ha hb]; exact hb
  · intro hb
    obtain ⟨a, ha⟩ := hok.mpr ⟨_, hb⟩
    rw [← huniq _ _ ha hb]; exact ha

/-- the polycrystal with other phases and phase numbers -/
def withPhases (p : Polycrystal) (ps : List Phase) (map : List ℝ) : Polycrystal := { p with phases := ps, phaseMap := map }

theorem relabel_new {x : Xfab} {mesh : TetraMesh} {o s : MatArg} (h : Relabelled σ ps ps' map map') :
    (∀ p, Polycrystal.new x mesh o s (.many ps) (some map) = .ok p →
      Polycrystal.new x mesh o s (.many ps') (some map') = .ok (withPhases p ps' map') ∧ p.phases = ps ∧ p.phaseMap = map ∧ p.mapKind = .torch) ∧
    (∀ q, Polycrystal.new x mesh o s (.many ps') (some map') = .ok q → ∃ p, Polycrystal.new x mesh o s (.many ps) (some map) = .ok p) := by
  constructor
  · intro p hp
    obtain ⟨U, S, kind, pm, eB, hU, hS, hk, heB, rfl⟩ := Polycrystal.new_ok hp
    have := Except.ok.inj hk
    simp only [Prod.mk.injEq] at this
    obtain ⟨rfl, rfl⟩ := this
    refine ⟨?_, rfl, rfl, rfl⟩
    unfold Polycrystal.new
    dsimp only
    rw [hU, hS]
    dsimp only [instantiatePhase]
    have := (relabel_eB h eB).mp heB
    simp only [PhasesArg.toList, this]
    rfl
  · intro q hq
    obtain ⟨U, S, kind, pm, eB, hU, hS, hk, heB, rfl⟩ := Polycrystal.new_ok hq
    have := Except.ok.inj hk
    simp only [Prod.mk.injEq] at this
    obtain ⟨rfl, rfl⟩ := this
    have := (relabel_eB h eB).mpr heB
    unfold Polycrystal.new
    dsimp only
    rw [hU, hS]
    dsimp only [instantiatePhase]
    simp only [PhasesArg.toList, this]
    exact ⟨_, rfl⟩

theorem withPhases_transforms (ps : List Phase) (map : List ℝ) (hist : List (Motion × ℝ)) :
    ∀ p : Polycrystal, (withPhases p ps map).transforms hist = withPhases (p.transforms hist) ps map := by
  induction hist with
  | nil => intro p; rfl
  | cons a hist ih => intro p; exact ih (p.transform a.1 a.2)

/-- a ten-column row with its phase number replaced -/
noncomputable def setPhaseNo (σ : ℕ → ℕ) (r : List ℝ) : List ℝ := r.set 1 (σ ⌊colD r 1⌋.toNat : ℕ)

theorem relabel_elemRows {c c' : Crystal} (ho : c'.orientation = c.orientation) (hB : c'.eB = c.eB) (pick : Fl × Fl → Fl) (b : Beam) (m : Motion)
    (i : ℕ) (ph : Phase) (e : ℕ) : elemRows pick c' b m (σ i) ph e = (elemRows pick c b m i ph e).map (setPhaseNo σ) := by
  unfold elemRows
  rw [List.map_filterMap, ho, hB]
  apply List.filterMap_congr
  intro p _
  dsimp only
  rw [Option.map_map]
  congr 1
  funext t
  simp [setPhaseNo, colD]

theorem relabel_rows {c c' : Crystal} (ho : c'.orientation = c.orientation) (hB : c'.eB = c.eB)
    (h : Relabelled σ c.phases c'.phases c.phaseMap c'.phaseMap) (b : Beam) (m : Motion) :
    (allPhaseRows c' b m).Perm ((allPhaseRows c b m).map (setPhaseNo σ)) ∧
    ((∀ i < c.phases.length, ∀ j < c.phases.length, i < j → σ i < σ j) → allPhaseRows c' b m = (allPhaseRows c b m).map (setPhaseNo σ)) := by
  set F' : ℕ → List (List ℝ) := fun k => match c'.phases[k]? with | some ph => phaseRows c' b m k ph | none => [] with hF'
  set F : ℕ → List (List ℝ) := fun k => match c.phases[k]? with | some ph => phaseRows c b m k ph | none => [] with hF
  have e1 : allPhaseRows c' b m = ((List.range c'.phases.length).filter fun k => decide (∃ i < c.phases.length, k = σ i)).flatMap F' := by
    show (List.range c'.phases.length).flatMap F' = _
    have : ∀ k ∈ List.range c'.phases.length, ¬ (∃ i < c.phases.length, k = σ i) → F' k = [] := by
      intro k hk hn
      rw [List.mem_range] at hk
      push Not at hn
      simp only [hF', List.getElem?_eq_getElem hk]
      rw [phaseRows_elems, h.unused hk hn]
      rfl
    revert this
    generalize List.range c'.phases.length = l
    intro this
    induction l with
    | nil => rfl
    | cons a l ih =>
      rw [List.flatMap_cons, ih fun k hk => this k (List.mem_cons_of_mem _ hk), List.filter_cons]
      split_ifs with hc
      · rw [List.flatMap_cons]
      · rw [this a List.mem_cons_self (by simpa using hc), List.nil_append]
  have e2 : (allPhaseRows c b m).map (setPhaseNo σ) = ((List.range c.phases.length).map σ).flatMap F' := by
    show ((List.range c.phases.length).flatMap F).map _ = _
    rw [List.flatMap_map, List.map_flatMap]
    apply List.flatMap_congr
    intro i hi
    rw [List.mem_range] at hi
    simp only [hF, hF', h.phase i hi, List.getElem?_eq_getElem hi]
    rw [phaseRows_elems, phaseRows_elems, h.grains hi, List.map_append, List.map_flatMap, List.map_flatMap]
    congr 1 <;> apply List.flatMap_congr <;> intro e _ <;> exact (relabel_elemRows ho hB _ b m i _ e).symm
  have hmem : ∀ k, k ∈ ((List.range c'.phases.length).filter fun k => decide (∃ i < c.phases.length, k = σ i)) ↔
      k ∈ (List.range c.phases.length).map σ := by
    intro k
    simp only [List.mem_filter, List.mem_range, decide_eq_true_eq, List.mem_map]
    constructor
    · rintro ⟨-, i, hi, rfl⟩; exact ⟨i, hi, rfl⟩
    · rintro ⟨i, hi, rfl⟩; exact ⟨h.lt hi, i, hi, rfl⟩
  rw [e1, e2]
  refine ⟨?_, ?_⟩
  · apply List.Perm.flatMap_right
    refine (List.perm_ext_iff_of_nodup (List.nodup_range.filter _) ?_).mpr hmem
    refine List.Nodup.map_on ?_ List.nodup_range
    intro i hi j hj hh
    exact h.inj i (List.mem_range.mp hi) j (List.mem_range.mp hj) hh
  · intro hmono
    congr 1
    refine eq_of_increasing (List.pairwise_lt_range.filter _) ?_ hmem
    rw [List.pairwise_map]
    refine List.pairwise_lt_range.imp_of_mem ?_
    intro i j hi hj hij
    exact hmono i (List.mem_range.mp hi) j (List.mem_range.mp hj) hij

theorem elemRows_shape {pick : Fl × Fl → Fl} {c : Crystal} {b : Beam} {m : Motion} {i : ℕ} {ph : Phase} {e : ℕ} {r : List ℝ}
    (h : r ∈ elemRows pick c b m i ph e) : r.length = 10 ∧ colD r 1 = (i : ℝ) := by
  unfold elemRows at h
  rw [List.mem_filterMap] at h
  obtain ⟨p, -, h⟩ := h
  rw [Option.map_eq_some_iff] at h
  obtain ⟨t, -, rfl⟩ := h
  exact ⟨rfl, rfl⟩

theorem allPhaseRows_phase {c : Crystal} {b : Beam} {m : Motion} {r : List ℝ} (hr : r ∈ allPhaseRows c b m) :
    r.length = 10 ∧ ∃ i : ℕ, colD r 1 = (i : ℝ) := by
  unfold allPhaseRows at hr
  rw [List.mem_flatMap] at hr
  obtain ⟨i, -, hr⟩ := hr
  cases hp : c.phases[i]? with
  | none => rw [hp] at hr; cases hr
  | some ph =>
    rw [hp] at hr
    dsimp only at hr
    rw [phaseRows_elems, List.mem_append, List.mem_flatMap, List.mem_flatMap] at hr
    rcases hr with ⟨e, -, hr⟩ | ⟨e, -, hr⟩
    · exact ⟨(elemRows_shape hr).1, i, (elemRows_shape hr).2⟩
    · exact ⟨(elemRows_shape hr).1, i, (elemRows_shape hr).2⟩

/-- a 24-column row and the same row with another phase number -/
def OtherPhase (σ : ℕ → ℕ) (r r' : List Fl) : Prop := ∃ i : ℕ, r.length = 24 ∧ r[1]? = some (fin i) ∧ r' = r.set 1 (fin (σ i : ℕ))

theorem relabel_extend {c c' : Crystal} (hs : c'.sphereCentroids = c.sphereCentroids) (hv : c'.volumes = c.volumes) (b : Beam) (m : Motion)
    {r : List ℝ} {i : ℕ} (hl : r.length = 10) (h1 : colD r 1 = (i : ℝ)) :
    extendRow c' b m (setPhaseNo σ r) = (extendRow c b m r).set 1 (fin (σ i : ℕ)) ∧ (extendRow c b m r).length = 24 ∧
      (extendRow c b m r)[1]? = some (fin i) := by
  match r, hl with
  | [a0, a1, a2, a3, a4, a5, a6, a7, a8, a9], _ =>
    have e1 : a1 = (i : ℝ) := h1
    subst e1
    refine ⟨?_, rfl, rfl⟩
    unfold extendRow setPhaseNo colD
    rw [hs, hv]
    simp

theorem illuminated_set1 (b : Beam) (row : List Fl) (v : Fl) : illuminated b (row.set 1 v) = illuminated b row := by
  unfold illuminated sourceOf
  simp

theorem other_row {r r' : List Fl} (h : OtherPhase σ r r') (v v' : Fl) : SameButPhase peakColumns σ (r ++ [v]) (r' ++ [v']) ∧
    (∀ w, Has peakColumns (r' ++ [v']) "peak_index" w ↔ w = v') ∧ ∀ w, Has peakColumns (r ++ [v]) "peak_index" w ↔ w = v := by
  obtain ⟨i, hl, h1, rfl⟩ := h
  have hlast : ∀ (q : List Fl) (u w : Fl), q.length = 24 → (Has peakColumns (q ++ [u]) "peak_index" w ↔ w = u) := by
    intro q u w hq
    rw [has_iff 24 rfl, List.getElem?_append_right (by omega), hq]
    simp [eq_comm]
  refine ⟨⟨⟨i, ⟨1, rfl, ?_⟩, ⟨1, rfl, ?_⟩⟩, ?_⟩, fun w => hlast _ _ _ (by simp [hl]), fun w => hlast _ _ _ hl⟩
  · rw [List.getElem?_append_left (by omega)]; exact h1
  · rw [List.getElem?_append_left (by rw [List.length_set]; omega), List.getElem?_set, if_pos rfl, if_pos (by omega)]
  · intro name n1 n24 w
    have key : ∀ j : ℕ, peakColumns[j]? = some name → (r.set 1 (fin (σ i : ℕ)) ++ [v'])[j]? = (r ++ [v])[j]? := by
      intro j hj
      have n24 : j ≠ 24 := fun e => n24 ((has_peakColumns hj).2.mpr e)
      have n1 : j ≠ 1 := by rintro rfl; exact n1 (Option.some.inj hj).symm
      have hj' : j < 25 := by
        by_contra hc
        rw [List.getElem?_eq_none (by show 25 ≤ j; omega)] at hj
        cases hj
      rw [List.getElem?_append_left (by rw [List.length_set]; omega), List.getElem?_append_left (by omega), List.getElem?_set,
        if_neg (fun e => n1 e.symm)]
    constructor
    · rintro ⟨j, g1, g2⟩; exact ⟨j, g1, by rw [← key j g1]; exact g2⟩
    · rintro ⟨j, g1, g2⟩; exact ⟨j, g1, by rw [key j g1]; exact g2⟩

/-- the rows kept, before numbering -/
noncomputable def keptRows (c : Crystal) (b : Beam) (m : Motion) : List (List Fl) := ((allPhaseRows c b m).map (extendRow c b m)).filter (illuminated b)

theorem relabel_kept {c c' : Crystal} (ho : c'.orientation = c.orientation) (hB : c'.eB = c.eB) (hs : c'.sphereCentroids = c.sphereCentroids)
    (hv : c'.volumes = c.volumes) (h : Relabelled σ c.phases c'.phases c.phaseMap c'.phaseMap) (b : Beam) (m : Motion) :
    ∃ K, List.Forall₂ (OtherPhase σ) (keptRows c b m) K ∧ K.Perm (keptRows c' b m) ∧
      ((∀ i < c.phases.length, ∀ j < c.phases.length, i < j → σ i < σ j) → K = keptRows c' b m) := by
  refine ⟨(((allPhaseRows c b m).map (setPhaseNo σ)).map (extendRow c' b m)).filter (illuminated b), ?_, ?_, ?_⟩
  · unfold keptRows
    have hrows : ∀ r ∈ allPhaseRows c b m, r.length = 10 ∧ ∃ i : ℕ, colD r 1 = (i : ℝ) := fun r hr => allPhaseRows_phase hr
    revert hrows
    generalize allPhaseRows c b m = l
    intro hrows
    induction l with
    | nil => exact List.Forall₂.nil
    | cons r l ih =>
      have ih := ih fun q hq => hrows q (List.mem_cons_of_mem _ hq)
      obtain ⟨hl, i, hi⟩ := hrows r List.mem_cons_self
      obtain ⟨g1, g2, g3⟩ := relabel_extend (σ := σ) hs hv b m hl hi
      simp only [List.map_cons, List.filter_cons]
      rw [g1, illuminated_set1]
      split_ifs
      · exact List.Forall₂.cons ⟨i, g2, g3, rfl⟩ ih
      · exact ih
  · exact (((relabel_rows ho hB h b m).1.map _).filter _).symm
  · intro hm
    unfold keptRows
    rw [(relabel_rows ho hB h b m).2 hm]

theorem core_eq (c : Crystal) (b : Beam) (m : Motion) (hk : c.mapKind = .torch) :
    diffractCore c b m = if (allPhaseRows c b m).length = 1 then .error .indexError else
      .ok ⟨(keptRows c b m).mapIdx fun i row => row ++ [fin (i : ℝ)], peakColumns, b.waveVector, b.wavelength, m.axis, m, b⟩ := by
  unfold diffractCore computePeaks
  rw [if_neg (by rw [hk]; simp)]
  by_cases h1 : (allPhaseRows c b m).length = 1
  · simp only [h1, if_true]
  · simp only [h1, if_false]; rfl

theorem forall₂_mapIdx {α β γ δ : Type} {R : α → β → Prop} {S : γ → δ → Prop} (f : ℕ → α → γ) (g : ℕ → β → δ) (hRS : ∀ i a b, R a b → S (f i a) (g i b)) :
    ∀ {A : List α} {B : List β}, List.Forall₂ R A B → List.Forall₂ S (A.mapIdx f) (B.mapIdx g) := by
  intro A B h
  rw [List.forall₂_iff_get] at h ⊢
  refine ⟨by simpa using h.1, ?_⟩
  intro i h1 h2
  simp only [List.get_eq_getElem, List.getElem_mapIdx]
  rw [List.length_mapIdx] at h1 h2
  exact hRS _ _ _ (h.2 i h1 h2)

/-- C96: list the phases in any other order, add phases, and renumber the elements accordingly.  Then the polycrystal can be built from
the one description exactly if it can from the other; and after any history of motions, for every beam, scan and Bragg limits (given
or from a detector), `diffract` succeeds for the one exactly if it does for the other, and reports the same peaks: the tables agree up
to the order of the rows, the phase number and the running number. -/
theorem C96_phase_order (x : Xfab) (mesh : TetraMesh) (o s : MatArg) (σ : ℕ → ℕ) (ps ps' : List Phase) (map map' : List ℝ)
    (h : Relabelled σ ps ps' map map') :
    ((∃ p, Polycrystal.new x mesh o s (.many ps) (some map) = .ok p) ↔ ∃ q, Polycrystal.new x mesh o s (.many ps') (some map') = .ok q) ∧
    ∀ p q, Polycrystal.new x mesh o s (.many ps) (some map) = .ok p → Polycrystal.new x mesh o s (.many ps') (some map') = .ok q →
      ∀ (hist : List (Motion × ℝ)) (x2 : Xfab) (b : Beam) (m : Motion) (lo hi : ℝ) (det : Option Detector),
        ((∃ r, (p.transforms hist).diffract x2 b m lo hi det = .ok r) ↔ ∃ r, (q.transforms hist).diffract x2 b m lo hi det = .ok r) ∧
        ∀ d d' p1 q1, (p.transforms hist).diffract x2 b m lo hi det = .ok (d, p1) →
          (q.transforms hist).diffract x2 b m lo hi det = .ok (d', q1) →
          d'.columns = d.columns ∧ (∃ l, List.Forall₂ (SameButPhase d.columns σ) d.peaks l ∧ l.Perm d'.peaks) ∧
          ((∀ i < ps.length, ∀ j < ps.length, i < j → σ i < σ j) →
            List.Forall₂ (fun row row' => SameButPhase d.columns σ row row' ∧
              ∀ v, Has d.columns row' "peak_index" v ↔ Has d.columns row "peak_index" v) d.peaks d'.peaks) := by
  obtain ⟨hnew, hback⟩ := relabel_new (x := x) (mesh := mesh) (o := o) (s := s) h
  refine ⟨⟨fun ⟨p, hp⟩ => ⟨_, (hnew p hp).1⟩, fun ⟨q, hq⟩ => hback q hq⟩, ?_⟩
  intro p q hp hq hist x2 b m lo hi det
  obtain ⟨hq', hps, hmap, hkind⟩ := hnew p hp
  rw [hq'] at hq
  obtain rfl := Except.ok.inj hq
  rw [withPhases_transforms]
  have hP : ∀ (hist : List (Motion × ℝ)) (p : Polycrystal), (p.transforms hist).phases = p.phases ∧ (p.transforms hist).phaseMap = p.phaseMap ∧ (p.transforms hist).mapKind = p.mapKind := by
    intro hist
    induction hist with
    | nil => intro p; exact ⟨rfl, rfl, rfl⟩
    | cons a hist ih => intro p; exact ih (p.transform a.1 a.2)
  obtain ⟨g1, g2, g3⟩ := hP hist p
  rw [hps] at g1; rw [hmap] at g2; rw [hkind] at g3
  generalize p.transforms hist = P at g1 g2 g3 ⊢
  have hlim : (withPhases P ps' map').limits b lo hi det = P.limits b lo hi det := by cases det <;> rfl
  have hrel : ∀ lo hi, Relabelled σ (P.setupPhases x2 b.wavelength lo hi).crystal.phases
      ((withPhases P ps' map').setupPhases x2 b.wavelength lo hi).crystal.phases
      (P.setupPhases x2 b.wavelength lo hi).crystal.phaseMap ((withPhases P ps' map').setupPhases x2 b.wavelength lo hi).crystal.phaseMap := by
    intro lo hi
    have a1 : (P.setupPhases x2 b.wavelength lo hi).crystal.phases = ps.map fun ph => ph.setup x2 b.wavelength lo hi := by rw [← g1]; rfl
    have a2 : ((withPhases P ps' map').setupPhases x2 b.wavelength lo hi).crystal.phases = ps'.map fun ph => ph.setup x2 b.wavelength lo hi := rfl
    have a3 : (P.setupPhases x2 b.wavelength lo hi).crystal.phaseMap = map := g2
    have a4 : ((withPhases P ps' map').setupPhases x2 b.wavelength lo hi).crystal.phaseMap = map' := rfl
    rw [a1, a2, a3, a4]
    refine ⟨?_, ?_, ?_⟩
    · simpa using h.inj
    · intro i hi'
      rw [List.length_map] at hi'
      rw [List.getElem?_map, List.getElem?_map, h.phase i hi']
    · simpa using h.elements
  have hk : ∀ lo hi, (P.setupPhases x2 b.wavelength lo hi).crystal.mapKind = .torch ∧
      ((withPhases P ps' map').setupPhases x2 b.wavelength lo hi).crystal.mapKind = .torch := fun _ _ => ⟨g3, g3⟩
  have hlen : ∀ lo hi, (allPhaseRows ((withPhases P ps' map').setupPhases x2 b.wavelength lo hi).crystal b m).length =
      (allPhaseRows (P.setupPhases x2 b.wavelength lo hi).crystal b m).length := by
    intro lo hi
    have := (relabel_rows (c := (P.setupPhases x2 b.wavelength lo hi).crystal) (c' := ((withPhases P ps' map').setupPhases x2 b.wavelength lo hi).crystal)
      rfl rfl (hrel lo hi) b m).1.length_eq
    simpa using this
  refine ⟨?_, ?_⟩
  · unfold Polycrystal.diffract
    rw [hlim]
    cases P.limits b lo hi det with
    | error e => simp
    | ok lh =>
      simp only
      rw [core_eq _ b m (hk _ _).1, core_eq _ b m (hk _ _).2, hlen]
      split_ifs <;> simp
  · intro d d' p1 q1 hd hd'
    obtain ⟨lo1, hi1, hb, rfl, hc⟩ := Polycrystal.diffract_ok hd
    obtain ⟨lo2, hi2, hb', rfl, hc'⟩ := Polycrystal.diffract_ok hd'
    rw [hlim, hb] at hb'
    have hb' := Except.ok.inj hb'
    simp only [Prod.mk.injEq] at hb'
    obtain ⟨rfl, rfl⟩ := hb'
    have hcols := diffract_columns hc
    refine ⟨by rw [hcols, diffract_columns hc'], ?_⟩
    rw [hcols]
    rw [core_eq _ b m (hk _ _).1] at hc
    rw [core_eq _ b m (hk _ _).2] at hc'
    split_ifs at hc hc'
    obtain rfl := Except.ok.inj hc
    obtain rfl := Except.ok.inj hc'
    obtain ⟨K, f1, f2, f3⟩ := relabel_kept (σ := σ) (c := (P.setupPhases x2 b.wavelength lo1 hi1).crystal)
      (c' := ((withPhases P ps' map').setupPhases x2 b.wavelength lo1 hi1).crystal) rfl rfl rfl rfl (hrel lo1 hi1) b m
    dsimp only
    refine ⟨?_, ?_⟩
    · have hnum : ∀ L : List (List Fl), List.Forall₂ (fun r row => ∃ v, row = r ++ [v]) L (L.mapIdx fun i row => row ++ [fin (i : ℝ)]) := by
        intro L
        have := forall₂_mapIdx (R := Eq) (S := fun r row => ∃ v : Fl, row = r ++ [v]) (fun _ r => r) (fun (i : ℕ) (row : List Fl) => row ++ [fin (i : ℝ)])
          (fun i a b hab => ⟨fin i, by rw [hab]⟩) (A := L) (B := L) (List.forall₂_same.mpr fun _ _ => rfl)
        have e : L.mapIdx (fun _ r => r) = L := by
          apply List.ext_getElem?
          intro i; simp
        rwa [e] at this
      obtain ⟨l, hl1, hl2⟩ := List.perm_comp_forall₂ f2 (hnum (keptRows ((withPhases P ps' map').setupPhases x2 b.wavelength lo1 hi1).crystal b m))
      refine ⟨l, ?_, hl2⟩
      have hA := hnum (keptRows (P.setupPhases x2 b.wavelength lo1 hi1).crystal b m)
      generalize (keptRows (P.setupPhases x2 b.wavelength lo1 hi1).crystal b m).mapIdx (fun i row => row ++ [fin (i : ℝ)]) = A at hA ⊢
      clear hl2
      generalize keptRows (P.setupPhases x2 b.wavelength lo1 hi1).crystal b m = L at f1 hA
      clear f2 f3
      induction f1 generalizing l A with
      | nil => cases hl1; cases hA; exact List.Forall₂.nil
      | cons h1 _ ih =>
        cases hl1 with
        | cons k1 k2 =>
          cases hA with
          | cons w1 w2 =>
            refine List.Forall₂.cons ?_ (ih _ k2 _ w2)
            obtain ⟨v, rfl⟩ := k1
            obtain ⟨v', rfl⟩ := w1
            exact (other_row h1 _ _).1
    · intro hmono
      rw [← f3 (by
        have a1 : (P.setupPhases x2 b.wavelength lo1 hi1).crystal.phases.length = ps.length := by
          show (P.phases.map _).length = _; rw [g1, List.length_map]
        rw [a1]; exact hmono)]
      exact forall₂_mapIdx _ _ (fun i a b' hab => by
        obtain ⟨q1, q2, q3⟩ := other_row hab (fin (i:ℝ)) (fin (i:ℝ))
        exact ⟨q1, fun v => by rw [q2, q3]⟩) f1

/-- a phase no element of the scene uses -/
def sparePhase : Phase := Phase.new [2, 2, 2, 90, 90, 90] "Fd-3m" none

/-- the scene described with a spare phase listed first -/
theorem spare_relabelled : Relabelled (fun i => i + 1) [scenePhase] [sparePhase, scenePhase] [0] [1] := by
  refine ⟨fun i _ j _ h => by simpa using h, fun i hi => ?_, ?_⟩
  · simp only [List.length_singleton, Nat.lt_one_iff] at hi; subst hi; rfl
  · exact List.Forall₂.cons (Or.inl ⟨0, by simp, by simp, by simp⟩) List.Forall₂.nil

/-- C96 is not vacuous: the one-phase scene described with an unused phase listed before its own is built, diffracts, and reports the
same peak (hkl, G), now with phase number 1. -/
example : ∃ q, Polycrystal.new sceneX sceneMesh (.one 1) (.one 0) (.many [sparePhase, scenePhase]) (some [1]) = .ok q ∧
    ∃ d' q1, q.diffract sceneX demoBeam demoZ 0 (Real.pi / 2) none = .ok (d', q1) ∧ ∃ row ∈ d'.peaks,
      HasV d'.columns row "G0_x" "G0_y" "G0_z" ⟨-3/5, 4/5, 1⟩ ∧ HasV d'.columns row "h" "k" "l" ⟨1, 0, 0⟩ ∧
      Has d'.columns row "phase_number" (fin 1) := by
  obtain ⟨hnew, hall⟩ := C96_phase_order sceneX sceneMesh (.one 1) (.one 0) _ _ _ _ _ spare_relabelled
  obtain ⟨q, hq⟩ := hnew.mp ⟨scenePoly, scenePoly_new⟩
  refine ⟨q, hq, ?_⟩
  obtain ⟨hok, hpk⟩ := hall scenePoly q scenePoly_new hq [] sceneX demoBeam demoZ 0 (Real.pi / 2) none
  have hs : Real.sqrt 2 ≤ 2 := by
    rw [Real.sqrt_le_left (by norm_num)]; norm_num
  obtain ⟨d, p', hd, hcol, row, hrow, hG, -, hh⟩ := scene_diffract none 0 (Real.pi / 2) 0 (Real.pi / 2) rfl
    (by rw [Real.sin_zero]; positivity) (by rw [Real.sin_pi_div_two]; linarith)
  obtain ⟨⟨d', q1⟩, hd'⟩ := hok.mp ⟨_, hd⟩
  refine ⟨d', q1, hd', ?_⟩
  obtain ⟨hc, -, hmono⟩ := hpk d d' p' q1 hd hd'
  have hf := hmono (fun i _ j _ h => by simpa using h)
  obtain ⟨n, hn, rfl⟩ := List.getElem_of_mem hrow
  have hg := List.forall₂_iff_get.mp hf
  have hn' : n < d'.peaks.length := hg.1 ▸ hn
  obtain ⟨⟨⟨i, hi, hi'⟩, hsame⟩, -⟩ := hg.2 n hn hn'
  simp only [List.get_eq_getElem] at hi hi' hsame
  refine ⟨_, List.getElem_mem hn', ?_, ?_, ?_⟩
  · rw [hc]
    exact ⟨(hsame _ (by decide) (by decide) _).mpr hG.1, (hsame _ (by decide) (by decide) _).mpr hG.2.1, (hsame _ (by decide) (by decide) _).mpr hG.2.2⟩
  · rw [hc]
    exact ⟨(hsame _ (by decide) (by decide) _).mpr hh.1, (hsame _ (by decide) (by decide) _).mpr hh.2.1, (hsame _ (by decide) (by decide) _).mpr hh.2.2⟩
  · have h0 : i = 0 := by
      obtain ⟨lo1, hi1, hb, rfl, hcore⟩ := Polycrystal.diffract_ok hd
      have hcons : ∀ ph ∈ (scenePoly.setupPhases sceneX demoBeam.wavelength lo1 hi1).crystal.phases, ph.Consistent := by
        have hl := Except.ok.inj hb
        simp only [Prod.mk.injEq] at hl
        obtain ⟨rfl, rfl⟩ := hl
        intro ph hph
        have e : (scenePoly.setupPhases sceneX demoBeam.wavelength 0 (Real.pi / 2)).crystal.phases =
            [scenePhase.setup sceneX demoBeam.wavelength 0 (Real.pi / 2)] := rfl
        rw [e, List.mem_singleton] at hph
        rw [hph, scene_setup _ _ (by rw [Real.sin_zero]; positivity) (by rw [Real.sin_pi_div_two]; linarith)]
        exact fun sf h => by cases h
      obtain ⟨e, k, _, ph, _, _, -, hk, -, hph, -⟩ := C42_peaks_use_own_phase _ _ _ _ hcons hcore _ hrow
      have hk0 : k = 0 := by
        have : k < 1 := (List.getElem?_eq_some_iff.mp hph).1
        omega
      subst hk0
      rw [hcol, has_iff 1 rfl] at hi hk
      rw [hi] at hk
      simpa using hk
    rw [h0] at hi'
    rw [hc]
    simpa using hi'

end XRD
