import Verif.Props.Odf
import Verif.Props.Powder

/-! C50: the cylinder surface handed to the mesher; C68: the sample built from an orientation density. -/

namespace XRD
open V3 M3 Fl

/-- number of `i < n` with `P i` -/
def cnt (n : ℕ) (P : ℕ → Bool) : ℕ := ((List.range n).filter P).length

theorem cnt_zero {n : ℕ} {P : ℕ → Bool} (h : ∀ i < n, ¬ P i = true) : cnt n P = 0 := by
  unfold cnt
  rw [List.length_eq_zero_iff, List.filter_eq_nil_iff]
  intro i hi; exact h i (List.mem_range.mp hi)

theorem cnt_perm {n : ℕ} {P : ℕ → Bool} {l : List ℕ} (hl : l.Nodup) (h : ∀ i, (i < n ∧ P i = true) ↔ i ∈ l) : cnt n P = l.length := by
  unfold cnt
  apply List.Perm.length_eq
  rw [List.perm_ext_iff_of_nodup (List.nodup_range.filter _) hl]
  intro i
  rw [List.mem_filter, List.mem_range]
  exact h i

theorem cnt_one {n : ℕ} {P : ℕ → Bool} (a : ℕ) (ha : a < n) (h : ∀ i < n, P i = true ↔ i = a) : cnt n P = 1 := by
  rw [cnt_perm (l := [a]) (by simp)]
  · rfl
  · intro i
    constructor
    · rintro ⟨h1, h2⟩; simpa using (h i h1).mp h2
    · intro hi; simp at hi; subst hi; exact ⟨ha, (h _ ha).mpr rfl⟩

theorem cnt_two {n : ℕ} {P : ℕ → Bool} (a b : ℕ) (ha : a < n) (hb : b < n) (hab : a ≠ b) (h : ∀ i < n, P i = true ↔ i = a ∨ i = b) :
    cnt n P = 2 := by
  rw [cnt_perm (l := [a, b]) (by simpa using hab)]
  · rfl
  · intro i
    constructor
    · rintro ⟨h1, h2⟩; simpa using (h i h1).mp h2
    · intro hi; simp at hi
      rcases hi with rfl | rfl
      · exact ⟨ha, (h _ ha).mpr (Or.inl rfl)⟩
      · exact ⟨hb, (h _ hb).mpr (Or.inr rfl)⟩

/-- counting facets with a property -/
theorem facets_count (n : ℕ) (P : List ℕ → Bool) :
    ((cylinderFacets n).filter P).length =
      cnt n (fun i => P [2 * n, i, (i + 1) % n]) + cnt n (fun i => P [2 * n + 1, n + (i + 1) % n, n + i]) +
      (cnt n (fun i => P [i, (i + 1) % n, n + i]) + cnt n (fun i => P [(i + 1) % n, n + (i + 1) % n, n + i])) := by
  have hm : ∀ (g : ℕ → List ℕ) (l : List ℕ), ((l.map g).filter P).length =
      (l.filter fun i => P (g i)).length := by
    intro g l
    rw [List.filter_map, List.length_map]; rfl
  have hf : ∀ (g h : ℕ → List ℕ) (l : List ℕ), ((l.flatMap fun i => [g i, h i]).filter P).length =
      (l.filter fun i => P (g i)).length + (l.filter fun i => P (h i)).length := by
    intro g h l
    induction l with
    | nil => rfl
    | cons x l ih =>
      simp only [List.flatMap_cons, List.filter_append, List.length_append, ih, List.filter_cons, List.filter_nil]
      by_cases h1 : P (g x) = true <;> by_cases h2 : P (h x) = true <;> simp [h1, h2] <;> omega
  unfold cylinderFacets cnt
  rw [List.filter_append, List.filter_append, List.length_append, List.length_append, hm, hm, hf]

/-- the successor on the circle -/
theorem next_eq {n i : ℕ} (hi : i < n) : (i + 1) % n = if i + 1 = n then 0 else i + 1 := by
  split_ifs with h
  · rw [h, Nat.mod_self]
  · exact Nat.mod_eq_of_lt (by omega)

/-- the predecessor on the circle -/
def prv (n i : ℕ) : ℕ := if i = 0 then n - 1 else i - 1

/-- C50: for every `n ≥ 3` all indices of the facets are indices of points, every facet has three different corners, and every
edge (two different corners of a facet) belongs to exactly two facets, counted with multiplicity: the surface is watertight. -/
theorem C50_watertight (n : ℕ) (hn : 3 ≤ n) (R dz : ℝ) :
    (∀ f ∈ cylinderFacets n, f.length = 3 ∧ f.Nodup ∧ ∀ i ∈ f, i < (cylinderPoints R dz n).length) ∧
    ∀ f ∈ cylinderFacets n, ∀ a ∈ f, ∀ b ∈ f, a ≠ b →
      ((cylinderFacets n).filter fun g => decide (a ∈ g ∧ b ∈ g)).length = 2 := by
  have hlen : (cylinderPoints R dz n).length = 2 * n + 2 := by
    simp [cylinderPoints]; ring
  have hmem : ∀ f, f ∈ cylinderFacets n ↔ ∃ i < n, f = [2 * n, i, (i + 1) % n] ∨ f = [2 * n + 1, n + (i + 1) % n, n + i] ∨
      f = [i, (i + 1) % n, n + i] ∨ f = [(i + 1) % n, n + (i + 1) % n, n + i] := by
    intro f
    simp only [cylinderFacets, List.mem_append, List.mem_map, List.mem_flatMap, List.mem_range, List.mem_cons, List.not_mem_nil, or_false]
    constructor
    · rintro ((⟨i, hi, rfl⟩ | ⟨i, hi, rfl⟩) | ⟨i, hi, rfl | rfl⟩)
      · exact ⟨i, hi, by simp⟩
      · exact ⟨i, hi, by simp⟩
      · exact ⟨i, hi, by simp⟩
      · exact ⟨i, hi, by simp⟩
    · rintro ⟨i, hi, rfl | rfl | rfl | rfl⟩
      · exact Or.inl (Or.inl ⟨i, hi, rfl⟩)
      · exact Or.inl (Or.inr ⟨i, hi, rfl⟩)
      · exact Or.inr ⟨i, hi, Or.inl rfl⟩
      · exact Or.inr ⟨i, hi, Or.inr rfl⟩
  constructor
  · intro f hf
    rw [hlen]
    obtain ⟨i, hi, h⟩ := (hmem f).mp hf
    have hnx : (i + 1) % n < n := Nat.mod_lt _ (by omega)
    have hne : (i + 1) % n ≠ i := by rw [next_eq hi]; split_ifs <;> (try simp only [true_or, or_true, true_and, and_true, false_or, or_false]) <;> omega
    rcases h with rfl | rfl | rfl | rfl
    · refine ⟨rfl, by simp; omega, ?_⟩
      intro k hk; simp only [List.mem_cons, List.not_mem_nil, or_false] at hk; omega
    · refine ⟨rfl, by simp; omega, ?_⟩
      intro k hk; simp only [List.mem_cons, List.not_mem_nil, or_false] at hk; omega
    · refine ⟨rfl, by simp; omega, ?_⟩
      intro k hk; simp only [List.mem_cons, List.not_mem_nil, or_false] at hk; omega
    · refine ⟨rfl, by simp; omega, ?_⟩
      intro k hk; simp only [List.mem_cons, List.not_mem_nil, or_false] at hk; omega
  · -- the six kinds of edges
    have sym : ∀ a b, ((cylinderFacets n).filter fun g => decide (a ∈ g ∧ b ∈ g)).length =
        ((cylinderFacets n).filter fun g => decide (b ∈ g ∧ a ∈ g)).length := by
      intro a b; congr 1; apply List.filter_congr; intro g _; simp [and_comm]
    have spokeB : ∀ i < n, ((cylinderFacets n).filter fun g => decide (2 * n ∈ g ∧ i ∈ g)).length = 2 := by
      intro i hi
      rw [facets_count, cnt_two i (prv n i) hi (by unfold prv; split_ifs <;> omega) (by unfold prv; split_ifs <;> omega),
        cnt_zero, cnt_zero, cnt_zero]
      all_goals
        intro j hj
        simp only [List.mem_cons, List.not_mem_nil, or_false, decide_eq_true_eq, true_or, or_true, true_and, and_true, not_true_eq_false]
        rw [next_eq hj]
        try unfold prv
        split_ifs <;> (try simp only [true_or, or_true, true_and, and_true, false_or, or_false]) <;> omega
    have spokeT : ∀ i < n, ((cylinderFacets n).filter fun g => decide (2 * n + 1 ∈ g ∧ n + i ∈ g)).length = 2 := by
      intro i hi
      rw [facets_count, cnt_zero, cnt_two i (prv n i) hi (by unfold prv; split_ifs <;> omega) (by unfold prv; split_ifs <;> omega),
        cnt_zero, cnt_zero]
      all_goals
        intro j hj
        simp only [List.mem_cons, List.not_mem_nil, or_false, decide_eq_true_eq, true_or, or_true, true_and, and_true, not_true_eq_false]
        rw [next_eq hj]
        try unfold prv
        split_ifs <;> (try simp only [true_or, or_true, true_and, and_true, false_or, or_false]) <;> omega
    have rimB : ∀ i < n, ((cylinderFacets n).filter fun g => decide (i ∈ g ∧ (i + 1) % n ∈ g)).length = 2 := by
      intro i hi
      rw [next_eq hi, facets_count, cnt_one i hi, cnt_zero, cnt_one i hi, cnt_zero]
      all_goals
        intro j hj
        simp only [List.mem_cons, List.not_mem_nil, or_false, decide_eq_true_eq, true_or, or_true, true_and, and_true, not_true_eq_false]
        rw [next_eq hj]
        split_ifs <;> (try simp only [true_or, or_true, true_and, and_true, false_or, or_false]) <;> omega
    have rimT : ∀ i < n, ((cylinderFacets n).filter fun g => decide (n + i ∈ g ∧ n + (i + 1) % n ∈ g)).length = 2 := by
      intro i hi
      rw [next_eq hi, facets_count, cnt_zero, cnt_one i hi, cnt_zero, cnt_one i hi]
      all_goals
        intro j hj
        simp only [List.mem_cons, List.not_mem_nil, or_false, decide_eq_true_eq, true_or, or_true, true_and, and_true, not_true_eq_false]
        rw [next_eq hj]
        split_ifs <;> (try simp only [true_or, or_true, true_and, and_true, false_or, or_false]) <;> omega
    have vert : ∀ i < n, ((cylinderFacets n).filter fun g => decide (i ∈ g ∧ n + i ∈ g)).length = 2 := by
      intro i hi
      rw [facets_count, cnt_zero, cnt_zero, cnt_one i hi, cnt_one (prv n i) (by unfold prv; split_ifs <;> omega)]
      all_goals
        intro j hj
        simp only [List.mem_cons, List.not_mem_nil, or_false, decide_eq_true_eq, true_or, or_true, true_and, and_true, not_true_eq_false]
        rw [next_eq hj]
        try unfold prv
        split_ifs <;> (try simp only [true_or, or_true, true_and, and_true, false_or, or_false]) <;> omega
    have diag : ∀ i < n, ((cylinderFacets n).filter fun g => decide ((i + 1) % n ∈ g ∧ n + i ∈ g)).length = 2 := by
      intro i hi
      rw [next_eq hi, facets_count, cnt_zero, cnt_zero, cnt_one i hi, cnt_one i hi]
      all_goals
        intro j hj
        simp only [List.mem_cons, List.not_mem_nil, or_false, decide_eq_true_eq, true_or, or_true, true_and, and_true, not_true_eq_false]
        rw [next_eq hj]
        split_ifs <;> (try simp only [true_or, or_true, true_and, and_true, false_or, or_false]) <;> omega
    intro f hf a ha b hb hab
    obtain ⟨i, hi, h⟩ := (hmem f).mp hf
    have hnx : (i + 1) % n < n := Nat.mod_lt _ (by omega)
    rcases h with rfl | rfl | rfl | rfl
    all_goals
      simp only [List.mem_cons, List.not_mem_nil, or_false] at ha hb
      rcases ha with rfl | rfl | rfl <;> rcases hb with rfl | rfl | rfl
      all_goals first
        | exact absurd rfl hab
        | exact spokeB _ hi
        | exact spokeB _ hnx
        | exact spokeT _ hi
        | exact spokeT _ hnx
        | exact rimB _ hi
        | exact rimT _ hi
        | exact vert _ hi
        | exact vert _ hnx
        | exact diag _ hi
        | (rw [sym]; exact spokeB _ hi)
        | (rw [sym]; exact spokeB _ hnx)
        | (rw [sym]; exact spokeT _ hi)
        | (rw [sym]; exact spokeT _ hnx)
        | (rw [sym]; exact rimB _ hi)
        | (rw [sym]; exact rimT _ hi)
        | (rw [sym]; exact vert _ hi)
        | (rw [sym]; exact vert _ hnx)
        | (rw [sym]; exact diag _ hi)

/-- C50: the number of points per circle is at least 8 for every sample size, and all points lie in the closed cylinder, those of
the circles on its rim. -/
theorem C50_points (R dz circ : ℝ) (hdz : 0 ≤ dz) :
    8 ≤ circlePoints R circ ∧
    ∀ v ∈ cylinderPoints R dz (circlePoints R circ), |v.z| = dz ∧ (v.x ^ 2 + v.y ^ 2 = R ^ 2 ∨ (v.x = 0 ∧ v.y = 0)) := by
  constructor
  · unfold circlePoints
    have : (8 : ℤ) ≤ max 8 (Detector.pyInt (2 * Real.pi * R / circ)) := le_max_left _ _
    omega
  · intro v hv
    simp only [cylinderPoints, List.mem_append, List.mem_map, List.mem_cons, List.not_mem_nil, or_false] at hv
    have hc : ∀ t : ℝ, (R * Real.cos t) ^ 2 + (R * Real.sin t) ^ 2 = R ^ 2 := by
      intro t; have := Real.sin_sq_add_cos_sq t; linear_combination R ^ 2 * this
    rcases hv with (⟨i, -, rfl⟩ | ⟨i, -, rfl⟩) | rfl | rfl
    · exact ⟨by simp [abs_of_nonneg hdz], Or.inl (hc _)⟩
    · exact ⟨by simp [abs_of_nonneg hdz], Or.inl (hc _)⟩
    · exact ⟨by simp [abs_of_nonneg hdz], Or.inr ⟨rfl, rfl⟩⟩
    · exact ⟨by simp [abs_of_nonneg hdz], Or.inr ⟨rfl, rfl⟩⟩

/-- the smallest surface the code builds: 8 points per circle, 32 facets -/
example : (cylinderFacets 8).length = 32 ∧ [16, 7, 0] ∈ cylinderFacets 8 := by decide

/-- C68: whatever mesh the mesher returns and whatever is drawn, if `polycrystal_from_odf` returns a sample then its mesh is the
mesher's answer for the cylinder of the given height and radius (with at least 8 points per circle), every element has its own
orientation, a proper rotation, the strain of the strain field at the mean of its four corners, and the single phase given. -/
theorem C68_from_odf (xf : Xfab) (mesher : Mesher) (odf : V3 → Quat → ℝ) (count height radius : ℝ) (cell : List ℝ) (sg : String)
    (cif : Option String) (sep : ℝ) (strain : V3 → M3) (draws : ℕ → Draw) (p : Polycrystal) (h0 : 0 < sep) (h1 : sep ≤ Real.pi)
    (hu : ∀ i, (0 ≤ (draws i).u1 ∧ (draws i).u1 < 1) ∧ (0 ≤ (draws i).u2 ∧ (draws i).u2 < 1) ∧ 0 ≤ (draws i).u3 ∧ (draws i).u3 < 1)
    (h : polycrystalFromOdf xf mesher odf count height radius cell sg cif sep strain draws = .ok p) :
    (∃ n vol, 8 ≤ n ∧ mesher (cylinderPoints radius (height / 2) n) (cylinderFacets n) vol = (p.meshLab.coord, p.meshLab.enod)) ∧
    p.orientationLab.length = p.meshLab.enod.length ∧ (∀ U ∈ p.orientationLab, IsRot U) ∧
    p.strainLab.length = p.meshLab.enod.length ∧
    (∀ (g : ℕ) (a b c d : V3), Spec.corners p.meshLab g = some [a, b, c, d] →
      p.strainLab[g]? = some (strain ((1 / 4 : ℝ) • (a + b + c + d)))) ∧
    p.phases = [Phase.new cell sg cif] ∧ p.phaseMap = List.replicate p.meshLab.enod.length 0 := by
  unfold polycrystalFromOdf at h
  split_ifs at h
  simp only at h
  split at h
  · cases h
  rename_i mesh hmesh
  split at h
  · cases h
  rename_i U hU
  obtain ⟨-, ho, -, hst, hl1, hl2, -, -, hml, -, hpm, -⟩ := C59_constructor_broadcasts _ _ _ _ _ _ _ h
  have hph : p.phases = [Phase.new cell sg cif] := by
    obtain ⟨U', S', kind, pm, eB, -, -, -, -, rfl⟩ := Polycrystal.new_ok h
    rfl
  obtain ⟨-, hrot⟩ := C48_orientations odf sep _ draws U hu h0 h1 hU
  have hdata : mesh = TetraMesh.ofData (mesher (cylinderPoints radius (height / 2) (circlePoints radius (maxCircumradius count height radius)))
      (cylinderFacets (circlePoints radius (maxCircumradius count height radius))) (maxCircumradius count height radius ^ 3 / 6)).1
      (mesher (cylinderPoints radius (height / 2) (circlePoints radius (maxCircumradius count height radius)))
      (cylinderFacets (circlePoints radius (maxCircumradius count height radius))) (maxCircumradius count height radius ^ 3 / 6)).2 := by
    unfold TetraMesh.new at hmesh
    split_ifs at hmesh
    exact (Except.ok.inj hmesh).symm
  refine ⟨⟨circlePoints radius (maxCircumradius count height radius), maxCircumradius count height radius ^ 3 / 6, ?_, ?_⟩, ?_, ?_, ?_, ?_, hph, ?_⟩
  · unfold circlePoints
    have : (8 : ℤ) ≤ max 8 (Detector.pyInt (2 * Real.pi * radius / maxCircumradius count height radius)) := le_max_left _ _
    omega
  · rw [hml, hdata]; rfl
  · rw [hml]; exact hl1
  · intro V hV
    rw [ho _ rfl] at hV
    obtain ⟨i, hi⟩ := List.mem_iff_getElem?.mp hV
    exact (hrot i V hi).1
  · rw [hml]; exact hl2
  · intro g a b c d hc
    rw [hst _ rfl, List.getElem?_map]
    rw [hml] at hc
    have he : mesh.ecentroids = (elements mesh.coord mesh.enod).map mean4 := by rw [hdata]; rfl
    rw [he, List.getElem?_map]
    unfold elements
    rw [List.getElem?_map]
    unfold Spec.corners at hc
    cases hg : mesh.enod[g]? with
    | none => rw [hg] at hc; cases hc
    | some e =>
      rw [hg] at hc
      simp only [Option.map_some, Q4.toList, List.map_cons, List.map_nil, Option.some.injEq, List.cons.injEq, and_true] at hc ⊢
      obtain ⟨rfl, rfl, rfl, rfl⟩ := hc
      rfl
  · rw [hpm _ rfl, hml]

/-- `polycrystal_from_odf` can succeed: a mesher returning one tetrahedron, the uniform density, no strain -/
example (xf : Xfab) : ∃ p, polycrystalFromOdf xf (fun _ _ _ => ([0, ⟨1, 0, 0⟩, ⟨0, 1, 0⟩, ⟨0, 0, 1⟩], [⟨0, 1, 2, 3⟩]))
    (fun _ _ => 1 / Real.pi ^ 2) 100 10 5 [4, 4, 4, 90, 90, 90] "Fm-3m" none 1 (fun _ => 0) (fun _ => ⟨0, 1/2, 1/2, 1/2⟩) = .ok p := by
  have hm : TetraMesh.new [0, ⟨1, 0, 0⟩, ⟨0, 1, 0⟩, ⟨0, 0, 1⟩] [⟨0, 1, 2, 3⟩] =
      .ok (TetraMesh.ofData [0, ⟨1, 0, 0⟩, ⟨0, 1, 0⟩, ⟨0, 0, 1⟩] [⟨0, 1, 2, 3⟩]) := by
    unfold TetraMesh.new
    rw [if_pos, if_pos]
    · intro t ht
      simp [elements, Q4.map] at ht
      subst ht
      simp [signedVolume, V3.dot, V3.cross]
    · intro e he i hi
      simp only [List.mem_cons, List.not_mem_nil, or_false] at he
      subst he
      simp only [Q4.toList, List.mem_cons, List.not_mem_nil, or_false] at hi
      simp only [List.length_cons, List.length_nil]; omega
  obtain ⟨Ms, hMs⟩ := C48_uniform 1 (TetraMesh.ofData [0, ⟨1, 0, 0⟩, ⟨0, 1, 0⟩, ⟨0, 0, 1⟩] [⟨0, 1, 2, 3⟩]).ecentroids (fun _ => ⟨0, 1/2, 1/2, 1/2⟩)
    (by norm_num) (by linarith [Real.pi_gt_three]) (by
    intro _
    have : 0 < ⌊Real.pi / 1⌋₊ := Nat.floor_pos.mpr (by have := Real.pi_gt_three; rw [div_one]; linarith)
    simp only; positivity)
  obtain ⟨hlen, hrot⟩ := C48_orientations _ _ _ _ _ (fun _ => by norm_num) (by norm_num) (by linarith [Real.pi_gt_three]) hMs
  unfold polycrystalFromOdf
  rw [if_neg (by norm_num), if_neg (by have := Real.pi_pos; push Not; positivity), if_neg (by have := Real.pi_pos; positivity)]
  simp only [hm, hMs]
  refine (C20_constructor_accepts_iff_feasible xf _ _ _ _ _ ?_ ?_ ?_ ?_ ?_).mpr ?_
  · rw [hlen]; rfl
  · simp [TetraMesh.ofData, elements]
  · simp
  · intro e he
    obtain ⟨_, _, rfl⟩ := List.mem_map.mp he
    rfl
  · intro V hV
    obtain ⟨i, hi⟩ := List.mem_iff_getElem?.mp hV
    exact (hrot i V hi).1
  · intro e i s _ _ hs v hv
    obtain ⟨_, _, rfl⟩ := List.mem_map.mp (List.mem_of_getElem? hs)
    have : 0 < nsq v := lt_of_le_of_ne (nsq_nonneg v) (fun h => hv (nsq_eq_zero.mp h.symm))
    simpa [mulVec, V3.dot] using this

end XRD
