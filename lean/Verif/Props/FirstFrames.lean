import Verif.Props.Frames
import Verif.Lemmas.PermRel
import Verif.Props.Range
import Verif.Props.Split

/-! Property C118: the first frames of a scan are the frames of the first part of the scan. -/

namespace XRD
open V3 M3 Fl Spec
open scoped Classical

/-- times up to `k/n` are in the first `k` of `n` frames, later times are not -/
theorem frameOf_first {n k : ℕ} (hk : 1 ≤ k) (hkn : k ≤ n) {f : ℕ} (hf : f < k) {t : ℝ} (ht : t ≤ 1) :
    frameOf n t = f ↔ t ≤ (k : ℝ) / n ∧ frameOf k (t / ((k : ℝ) / n)) = f := by
  have hkR : (0 : ℝ) < k := by exact_mod_cast hk
  have hnR : (0 : ℝ) < n := by exact_mod_cast (by omega : 0 < n)
  have e : t / ((k : ℝ) / n) * ((k : ℤ) : ℝ) = t * ((n : ℤ) : ℝ) := by
    push_cast
    field_simp
  rw [frameOf_clamp (n := (n : ℤ)) (by omega) t, frameOf_clamp (n := (k : ℤ)) (by omega) _, e]
  have h1 : t ≤ (k : ℝ) / n ↔ ⌈t * ((n : ℤ) : ℝ)⌉ ≤ k := by
    rw [Int.ceil_le, le_div_iff₀ hnR]; push_cast; rfl
  rw [h1]
  have h2 : ⌈t * ((n : ℤ) : ℝ)⌉ ≤ n := by
    rw [Int.ceil_le]; push_cast; nlinarith
  generalize ⌈t * ((n : ℤ) : ℝ)⌉ = c at h2
  omega

/-- the times of the rows are at most 1 -/
theorem allPhaseRows_time {c : Crystal} {b : Beam} {m : Motion} {r : List ℝ} (hr : r ∈ allPhaseRows c b m) : colD r 6 ≤ 1 := by
  unfold allPhaseRows at hr
  rw [List.mem_flatMap] at hr
  obtain ⟨i, -, hr⟩ := hr
  cases hp : c.phases[i]? with
  | none => rw [hp] at hr; cases hr
  | some ph =>
    rw [hp] at hr
    dsimp only at hr
    rw [phaseRows_elems, List.mem_append, List.mem_flatMap, List.mem_flatMap] at hr
    have key : ∀ pick e, r ∈ elemRows pick c b m i ph e → colD r 6 ≤ 1 := by
      intro pick e h
      rw [elemRows_planes, List.mem_filterMap] at h
      obtain ⟨q, -, hq⟩ := h
      unfold planeRow at hq
      dsimp only at hq
      rw [Option.map_eq_some_iff] at hq
      obtain ⟨t, ht, rfl⟩ := hq
      exact (keepTime_eq.mp ht).2.2
    rcases hr with ⟨e, -, h⟩ | ⟨e, -, h⟩
    · exact key _ e h
    · exact key _ e h

/-- every row of a table has 25 entries and a finite time -/
theorem diffract_rows25 {c : Crystal} {b : Beam} {m : Motion} {d : PeaksDict} (h : diffractCore c b m = .ok d) :
    d.columns = peakColumns ∧ d.motion = m ∧ d.beam = b ∧ ∀ r ∈ d.peaks, r.length = 25 ∧ ∃ t, r[6]? = some (fin t) ∧ t ≤ 1 := by
  unfold diffractCore at h
  split at h
  · cases h
  rename_i rows hrows
  obtain rfl := Except.ok.inj h
  obtain rfl := computePeaks_ok hrows
  refine ⟨rfl, rfl, rfl, ?_⟩
  intro r hr
  obtain ⟨i, hi, rfl⟩ := List.mem_mapIdx.mp hr
  have hm := List.getElem_mem (l := ((allPhaseRows c b m).map (extendRow c b m)).filter (illuminated b)) hi
  obtain ⟨q, hq, hqe⟩ := List.mem_map.mp (List.mem_filter.mp hm).1
  obtain ⟨h1, h2⟩ := extendRow_timed c b m (allPhaseRows_phase hq).1
  rw [hqe] at h1 h2
  exact ⟨by simp [h1], _, by rw [List.getElem?_append_left (by omega)]; exact h2, allPhaseRows_time hq⟩

/-- the hits among the rows of a table -/
noncomputable def hitsOf (D : Detector) (L : List (List Fl)) : List (List Fl) := L.filter fun row =>
  D.contains ((D.rowIntersect row).getD 0 nan) ((D.rowIntersect row).getD 1 nan) ∧ Fl.IsFinite (D.rowIntensity row) ∧ Fl.Lt (fin 0) (D.rowIntensity row)

/-- a micro image is the sum of the images of the hits of the frame -/
theorem micro_sum (D : Detector) (d : PeaksDict) (hlen : ∀ r ∈ d.peaks, r.length = 25) {n : ℕ} (hn : 1 ≤ n) {f : ℕ} (i j : ℕ) :
    stackOf n D.nz D.ny ((D.peaksIntersection d n).peaks.flatMap D.microDeposits) f i j =
      (((hitsOf D d.peaks).filter fun q => Detector.rowFrame n q = fin (f : ℝ)).map fun q =>
        stackOf 1 D.nz D.ny (D.microDeposits (row30 D 1 q)) 0 i j).sum := by
  set L := hitsOf D d.peaks with hL
  have hL25 : ∀ q ∈ L, q.length = 25 := fun q hq => hlen q (List.mem_filter.mp hq).1
  rw [peaksIntersection_rows D d n hlen]
  change stackOf n D.nz D.ny ((L.map (row30 D n)).flatMap D.microDeposits) f i j = _
  rw [List.flatMap_map, stackOf_flatMap]
  have : ∀ M : List (List Fl), (∀ q ∈ M, q ∈ L) →
      (M.map fun q => stackOf n D.nz D.ny (D.microDeposits (row30 D n q)) f i j).sum =
      ((M.filter fun q => Detector.rowFrame n q = fin (f : ℝ)).map fun q => stackOf 1 D.nz D.ny (D.microDeposits (row30 D 1 q)) 0 i j).sum := by
    intro M
    induction M with
    | nil => intro _; simp
    | cons q M ih =>
      intro hM
      have hq := hM q List.mem_cons_self
      rw [List.map_cons, List.sum_cons, ih fun p hp => hM p (List.mem_cons_of_mem _ hp)]
      obtain ⟨h1, h2⟩ := row30_cols D n (hL25 q hq)
      have hin : row30 D n q ∈ (D.peaksIntersection d n).peaks := by
        rw [peaksIntersection_rows D d n hlen]
        exact List.mem_map.mpr ⟨q, hq, rfl⟩
      obtain ⟨_, -, -, ⟨k, hk, hk0, hk1⟩, -⟩ := hitRows (by exact_mod_cast hn) hlen _ hin
      rw [stackOf_oneFrame n D.nz D.ny k.toNat _ (fun e he => ⟨_, _, (microDeposits_spec hk hk0 hk1 he).2.1⟩),
        microDeposits_noF (rcol_congr (h1 25 (by norm_num))) (rcol_congr (h1 26 (by norm_num))) (rcol_congr (h1 29 (by norm_num)))
          (rcol_congr (h1 21 (by norm_num))) h2, List.filter_cons]
      have hc := rcol28_row30 D n (hL25 q hq) (by exact_mod_cast hn) f
      rw [hk] at hc
      by_cases hf : f = k.toNat
      · have : (k:ℝ) = (f:ℝ) := by rw [hf]; exact_mod_cast (Int.toNat_of_nonneg hk0).symm
        rw [if_pos hf, if_pos (decide_eq_true (hc.mp this)), List.map_cons, List.sum_cons]
      · have : ¬ (k:ℝ) = (f:ℝ) := by
          intro h
          have : k = (f:ℤ) := by exact_mod_cast h
          omega
        rw [if_neg hf, if_neg (by simpa using fun h => this (hc.mpr h)), zero_add]
  exact this L fun q hq => hq

/-- a macro image is the convolution of the sum of the projections of the hits of the frame -/
theorem macro_sum (D : Detector) (env : RenderEnv) (mesh : TetraMesh) (d : PeaksDict) (hlen : ∀ r ∈ d.peaks, r.length = 25) {n : ℕ} (hn : 1 ≤ n)
    {t : Stack} (h : D.renderMacro env d.beam mesh d.motion (D.peaksIntersection d n).peaks n = .ok (some t)) {f : ℕ} (hf : f < n) :
    t f = conv2d D.nz D.ny D.gaussKernel fun i j => (((hitsOf D d.peaks).filter fun q => Detector.rowFrame n q = fin (f : ℝ)).map fun q =>
      macroVal D env d.beam mesh d.motion (row30 D 1 q) i j).sum := by
  set L := hitsOf D d.peaks with hL
  have hL25 : ∀ q ∈ L, q.length = 25 := fun q hq => hlen q (List.mem_filter.mp hq).1
  have hrows : (D.peaksIntersection d n).peaks = L.map (row30 D n) := peaksIntersection_rows D d n hlen
  have hfr : ∀ r ∈ L.map (row30 D n), ∃ k : ℕ, rcol r 28 = k ∧ k < n := by
    intro r hr
    rw [← hrows] at hr
    obtain ⟨q, -, -, ⟨k, hk, h0, h1⟩, -⟩ := hitRows (by exact_mod_cast hn) hlen r hr
    refine ⟨k.toNat, ?_, by omega⟩
    rw [hk]; exact_mod_cast (Int.toNat_of_nonneg h0).symm
  rw [hrows, renderMacro_eq hfr] at h
  split_ifs at h with h1 h2
  · cases h
  obtain rfl := Option.some.inj (Except.ok.inj h)
  dsimp only
  rw [if_pos hf]
  congr 1
  funext i j
  rw [filter_rows_sum hn hL25]
  congr 1
  apply List.map_congr_left
  intro q hq
  have : macroAdd D env d.beam mesh d.motion (row30 D n q) = macroAdd D env d.beam mesh d.motion (row30 D 1 q) :=
    macroAdd_congr fun j hj => rcol_congr ((row30_cols D n (hL25 q (List.mem_filter.mp hq).1)).1 j hj)
  unfold macroVal; rw [this]

/-- rows that differ in the time and the running number only -/
structure FirstClock (l : ℝ) (q q1 : List Fl) : Prop where
  len : q.length = 25 ∧ q1.length = 25
  time : ∃ t, q[6]? = some (fin t) ∧ q1[6]? = some (fin (t / l))
  rest : ∀ j, j ≠ 6 → j ≠ 24 → q1[j]? = q[j]?

/-- a named column by its number -/
theorem firstClock_of {l : ℝ} {q q1 : List Fl} (h : SameEventFirst peakColumns l q q1) (hq : q.length = 25) (hq1 : q1.length = 25) :
    FirstClock l q q1 := by
  obtain ⟨⟨t, h1, h2⟩, h3⟩ := h
  refine ⟨⟨hq, hq1⟩, ⟨t, (has_iff 6 rfl).mp h1, (has_iff 6 rfl).mp h2⟩, ?_⟩
  intro j j6 j24
  rcases Nat.lt_or_ge j 25 with hj | hj
  · have hname : peakColumns[j]? = some (peakColumns[j]'(by simpa [peakColumns] using hj)) := List.getElem?_eq_getElem _
    have n6 : peakColumns[j]'(by simpa [peakColumns] using hj) ≠ "diffraction_times" := by
      intro e
      rw [e] at hname
      interval_cases j <;> first | (exact absurd rfl j6) | (exact absurd (Option.some.inj hname) (by decide))
    have n24 : peakColumns[j]'(by simpa [peakColumns] using hj) ≠ "peak_index" := by
      intro e
      rw [e] at hname
      interval_cases j <;> first | (exact absurd rfl j24) | (exact absurd (Option.some.inj hname) (by decide))
    have hv : q[j]? = some (q[j]'(by omega)) := List.getElem?_eq_getElem _
    rw [hv]
    exact (has_iff j hname).mp ((h3 _ n6 n24 _).mpr ((has_iff j hname).mpr hv))
  · rw [List.getElem?_eq_none (by omega), List.getElem?_eq_none (by omega)]

section
variable {l : ℝ} {q q1 : List Fl} (h : FirstClock l q q1)
include h

theorem FirstClock.getD {j : ℕ} (h6 : j ≠ 6) (h24 : j ≠ 24) (v : Fl) : q1.getD j v = q.getD j v := by
  rw [List.getD_eq_getElem?_getD, List.getD_eq_getElem?_getD, h.rest j h6 h24]

theorem FirstClock.intersect (D : Detector) : D.rowIntersect q1 = D.rowIntersect q := by
  unfold Detector.rowIntersect vecAt
  rw [h.rest 13 (by norm_num) (by norm_num), h.rest (13 + 1) (by norm_num) (by norm_num), h.rest (13 + 2) (by norm_num) (by norm_num),
    h.rest 16 (by norm_num) (by norm_num), h.rest (16 + 1) (by norm_num) (by norm_num), h.rest (16 + 2) (by norm_num) (by norm_num)]

theorem FirstClock.intensity (D : Detector) : D.rowIntensity q1 = D.rowIntensity q := by
  unfold Detector.rowIntensity
  rw [h.getD (j := 5) (by norm_num) (by norm_num), h.getD (j := 20) (by norm_num) (by norm_num), h.getD (j := 19) (by norm_num) (by norm_num)]

/-- the columns of the hit rows -/
theorem FirstClock.hit (D : Detector) {j : ℕ} (h6 : j ≠ 6) (h24 : j ≠ 24) : rcol (row30 D 1 q1) j = rcol (row30 D 1 q) j := by
  apply rcol_congr
  have hfr : Detector.rowFrame 1 q1 = Detector.rowFrame 1 q := by
    obtain ⟨t, h1, h2⟩ := h.time
    unfold Detector.rowFrame
    rw [List.getD_eq_getElem?_getD, List.getD_eq_getElem?_getD, h1, h2]
    simp [frameOf]
  unfold row30
  rw [h.intersect, h.intensity, hfr, List.append_assoc, List.append_assoc, List.append_assoc, List.append_assoc]
  rcases Nat.lt_or_ge j 25 with hj | hj
  · rw [List.getElem?_append_left (by rw [h.len.2]; exact hj), List.getElem?_append_left (by rw [h.len.1]; exact hj)]
    exact h.rest j h6 h24
  · rw [List.getElem?_append_right (l₁ := q1) (by rw [h.len.2]; exact hj), List.getElem?_append_right (l₁ := q) (by rw [h.len.1]; exact hj), h.len.1, h.len.2]

theorem FirstClock.micro (D : Detector) : D.microDeposits (row30 D 1 q1) = D.microDeposits (row30 D 1 q) := by
  unfold Detector.microDeposits
  rw [h.hit D (j := 25) (by norm_num) (by norm_num), h.hit D (j := 26) (by norm_num) (by norm_num), h.hit D (j := 28) (by norm_num) (by norm_num),
    h.hit D (j := 29) (by norm_num) (by norm_num), h.hit D (j := 21) (by norm_num) (by norm_num)]

/-- the element is at the same place -/
theorem FirstClock.moved (D : Detector) (hl : 0 < l) {a T o : V3} {w : ℝ} (mesh : TetraMesh) :
    Detector.movedVertices mesh ⟨a, l * w, l • T, o⟩ (row30 D 1 q1) = Detector.movedVertices mesh ⟨a, w, T, o⟩ (row30 D 1 q) := by
  obtain ⟨t, h1, h2⟩ := h.time
  have e : ∀ {r : List Fl} {t : ℝ}, r.length = 25 → r[6]? = some (fin t) → rcol (row30 D 1 r) 6 = t := by
    intro r t hr ht
    unfold rcol row30
    rw [List.append_assoc, List.append_assoc, List.getElem?_append_left (by omega), ht]
  unfold Detector.movedVertices
  rw [h.hit D (j := 0) (by norm_num) (by norm_num), e h.len.1 h1, e h.len.2 h2]
  congr 1
  funext v
  have e1 : l * w * (t / l) = w * t := by field_simp
  have e2 : t / l * l = t := by field_simp
  unfold Motion.call1
  dsimp only
  rw [e1]
  congr 1
  ext <;> simp only [V3.smul_x, V3.smul_y, V3.smul_z] <;> rw [← _root_.mul_assoc, e2]

theorem FirstClock.macro (D : Detector) (env : RenderEnv) (b : Beam) (hl : 0 < l) {a T o : V3} {w : ℝ} (mesh : TetraMesh) :
    macroVal D env b mesh ⟨a, l * w, l • T, o⟩ (row30 D 1 q1) = macroVal D env b mesh ⟨a, w, T, o⟩ (row30 D 1 q) := by
  unfold macroVal macroAdd Detector.macroPeak
  rw [h.moved D hl mesh, h.hit D (j := 13) (by norm_num) (by norm_num), h.hit D (j := 14) (by norm_num) (by norm_num),
    h.hit D (j := 15) (by norm_num) (by norm_num), h.hit D (j := 29) (by norm_num) (by norm_num)]

theorem FirstClock.frame {n k : ℕ} (hl : l = (k : ℝ) / n) (hk : 1 ≤ k) (hkn : k ≤ n) {f : ℕ} (hf : f < k) (h1 : ∀ t, q[6]? = some (fin t) → t ≤ 1) :
    Detector.rowFrame n q = fin (f : ℝ) ↔ Upto peakColumns l q ∧ Detector.rowFrame k q1 = fin (f : ℝ) := by
  subst hl
  obtain ⟨t, ht, ht1⟩ := h.time
  have hu : Upto peakColumns ((k : ℝ) / n) q ↔ t ≤ (k : ℝ) / n := by
    constructor
    · rintro ⟨t', a1, a2⟩
      rw [has_iff 6 rfl, ht] at a1
      rw [Fl.fin.inj (Option.some.inj a1)]; exact a2
    · intro a; exact ⟨t, (has_iff 6 rfl).mpr ht, a⟩
  rw [hu]
  unfold Detector.rowFrame
  rw [List.getD_eq_getElem?_getD, List.getD_eq_getElem?_getD, ht, ht1]
  have := frameOf_first hk hkn hf (h1 t ht)
  have c1 : ∀ z : ℤ, fin ((z : ℤ) : ℝ) = fin (f : ℝ) ↔ z = (f : ℤ) := by
    intro z
    constructor
    · intro h; exact_mod_cast Fl.fin.inj h
    · intro h; rw [h]; push_cast; rfl
  simp only [Option.getD_some]
  rw [c1, c1]
  exact this
end

/-- sums over the hits of a frame -/
theorem first_sum {l : ℝ} {L L1 : List (List Fl)} (hL : List.Forall₂ (FirstClock l) (L.filter fun row => decide (Upto peakColumns l row)) L1)
    (h1 : ∀ q ∈ L, q.length = 25 ∧ ∃ t, q[6]? = some (fin t) ∧ t ≤ 1) {n k : ℕ} (hl : l = (k : ℝ) / n) (hk : 1 ≤ k) (hkn : k ≤ n) {f : ℕ} (hf : f < k)
    (D : Detector) {φ φ1 : List Fl → ℝ} (hφ : ∀ q q1, FirstClock l q q1 → φ1 q1 = φ q) :
    (((hitsOf D L).filter fun q => Detector.rowFrame n q = fin (f : ℝ)).map φ).sum =
      (((hitsOf D L1).filter fun q => Detector.rowFrame k q = fin (f : ℝ)).map φ1).sum := by
  have hlate : ((hitsOf D L).filter fun q => Detector.rowFrame n q = fin (f : ℝ)) =
      ((hitsOf D (L.filter fun row => decide (Upto peakColumns l row))).filter fun q => Detector.rowFrame n q = fin (f : ℝ)) := by
    unfold hitsOf
    simp only [List.filter_filter]
    apply List.filter_congr
    intro q hq
    rw [Bool.eq_iff_iff]
    simp only [Bool.and_eq_true, decide_eq_true_eq]
    constructor
    · rintro ⟨a1, a2⟩
      obtain ⟨h25, t, ht, ht1⟩ := h1 q hq
      -- any row on the first clock will do
      have hc : FirstClock l q (q.set 6 (fin (t / l))) := by
        refine ⟨⟨h25, by simp [h25]⟩, ⟨t, ht, by simp [h25]⟩, ?_⟩
        intro j j6 _
        rw [List.getElem?_set, if_neg (fun e => j6 e.symm)]
      have hu := ((hc.frame hl hk hkn hf fun t' h' => by rw [ht] at h'; rw [← Fl.fin.inj (Option.some.inj h')]; exact ht1).mp a1).1
      tauto
    · intro a1
      tauto
  rw [hlate]
  have hmem : ∀ q ∈ L.filter (fun row => decide (Upto peakColumns l row)), Upto peakColumns l q ∧ ∀ t, q[6]? = some (fin t) → t ≤ 1 := by
    intro q hq
    obtain ⟨a1, a2⟩ := List.mem_filter.mp hq
    refine ⟨of_decide_eq_true a2, ?_⟩
    intro t ht
    obtain ⟨-, t', ht', h'⟩ := h1 q a1
    rw [ht] at ht'
    rw [Fl.fin.inj (Option.some.inj ht')]; exact h'
  generalize (L.filter fun row => decide (Upto peakColumns l row)) = M at hL hmem
  induction hL with
  | nil => rfl
  | cons hqq _ ih =>
    rename_i q q1 M M1 _
    have ih := ih fun q hq => hmem q (List.mem_cons_of_mem _ hq)
    obtain ⟨a1, a2⟩ := hmem q List.mem_cons_self
    have hfr := hqq.frame hl hk hkn hf a2
    have hfr' : Detector.rowFrame n q = fin (f : ℝ) ↔ Detector.rowFrame k q1 = fin (f : ℝ) := by rw [hfr]; exact ⟨And.right, fun h => ⟨a1, h⟩⟩
    unfold hitsOf at ih ⊢
    rw [List.filter_cons, List.filter_cons, hqq.intersect, hqq.intensity]
    split_ifs with hh
    · rw [List.filter_cons, List.filter_cons]
      simp only [hfr', decide_eq_true_eq]
      split_ifs
      · rw [List.map_cons, List.map_cons, List.sum_cons, List.sum_cons, hφ q q1 hqq, ih]
      · exact ih
    · exact ih

/-- what the two calls give -/
theorem first_setup {x : Xfab} {p : Polycrystal} {b : Beam} {a T o : V3} {w : ℝ} {k n : ℕ} (hk : 1 ≤ k) (hkn : k ≤ n) {m m1 : Motion}
    (hm : Motion.new a w T o = .ok m) (hm1 : Motion.new a ((k : ℝ) / n * w) (((k : ℝ) / n) • T) o = .ok m1) {lo hi : ℝ} {det : Option Detector}
    {d d1 : PeaksDict} {p' p1' : Polycrystal} (hd : p.diffract x b m lo hi det = .ok (d, p')) (hd1 : p.diffract x b m1 lo hi det = .ok (d1, p1')) :
    List.Forall₂ (FirstClock ((k : ℝ) / n)) (d.peaks.filter fun row => decide (Upto peakColumns ((k : ℝ) / n) row)) d1.peaks ∧
    (∀ q ∈ d.peaks, q.length = 25 ∧ ∃ t, q[6]? = some (fin t) ∧ t ≤ 1) ∧ (∀ q ∈ d1.peaks, q.length = 25) ∧
    d.motion = ⟨a, w, T, o⟩ ∧ d1.motion = ⟨a, (k : ℝ) / n * w, ((k : ℝ) / n) • T, o⟩ ∧ d.beam = b ∧ d1.beam = b ∧ (0 : ℝ) < (k : ℝ) / n := by
  have hkR : (0 : ℝ) < k := by exact_mod_cast hk
  have hnR : (0 : ℝ) < n := by exact_mod_cast (by omega : 0 < n)
  have hl1 : (k : ℝ) / n ≤ 1 := by rw [div_le_one hnR]; exact_mod_cast hkn
  obtain ⟨-, -, h3⟩ := C73_first_part x p b a T o w _ (div_pos hkR hnR) hl1 m m1 hm hm1 lo hi det d d1 p' p1' hd hd1
  obtain ⟨_, _, _, _, hc⟩ := Polycrystal.diffract_ok hd
  obtain ⟨_, _, _, _, hc1⟩ := Polycrystal.diffract_ok hd1
  obtain ⟨g1, g2, g3, g4⟩ := diffract_rows25 hc
  obtain ⟨f1, f2, f3, f4⟩ := diffract_rows25 hc1
  rw [g1] at h3
  refine ⟨?_, g4, fun q hq => (f4 q hq).1, ?_, ?_, g3, f3, div_pos hkR hnR⟩
  · have hmem : ∀ q ∈ d.peaks.filter (fun row => decide (Upto peakColumns ((k : ℝ) / n) row)), q.length = 25 :=
      fun q hq => (g4 q (List.mem_filter.mp hq).1).1
    have hmem1 : ∀ q ∈ d1.peaks, q.length = 25 := fun q hq => (f4 q hq).1
    generalize d.peaks.filter (fun row => decide (Upto peakColumns ((k : ℝ) / n) row)) = A at h3 hmem
    generalize d1.peaks = B at h3 hmem1
    induction h3 with
    | nil => exact List.Forall₂.nil
    | cons h _ ih =>
      exact List.Forall₂.cons (firstClock_of h (hmem _ List.mem_cons_self) (hmem1 _ List.mem_cons_self))
        (ih (fun q hq => hmem q (List.mem_cons_of_mem _ hq)) fun q hq => hmem1 q (List.mem_cons_of_mem _ hq))
  · rw [g2, (Motion.new_ok hm).1]
  · rw [f2, (Motion.new_ok hm1).1]

/-- C118, micro: the crystal is scanned with a motion and the scan is rendered with `n` frames; and it is scanned with the first `k` n-ths of
that motion and rendered with `k` frames.  Both renderings succeed and the first `k` frames of the one are the frames of the other. -/
theorem C118_first_frames_micro (x : Xfab) (p : Polycrystal) (b : Beam) (a T o : V3) (w : ℝ) (k n : ℕ) (hk : 1 ≤ k) (hkn : k ≤ n) (m m1 : Motion)
    (hm : Motion.new a w T o = .ok m) (hm1 : Motion.new a ((k : ℝ) / n * w) (((k : ℝ) / n) • T) o = .ok m1) (lo hi : ℝ) (det : Option Detector)
    (d d1 : PeaksDict) (p' p1' : Polycrystal) (hd : p.diffract x b m lo hi det = .ok (d, p')) (hd1 : p.diffract x b m1 lo hi det = .ok (d1, p1'))
    (D : Detector) (env : RenderEnv) (mesh : TetraMesh) (ml : Option ℝ) (mi : ℝ) :
    ∃ t t1 o o1, D.render env d mesh n .micro ml mi = .ok (some t, o) ∧ D.render env d1 mesh k .micro ml mi = .ok (some t1, o1) ∧
      ∀ f < k, ∀ i j, t f i j = t1 f i j := by
  obtain ⟨h1, h2, h3, -⟩ := first_setup hk hkn hm hm1 hd hd1
  have e1 : max (n : ℤ) 1 = n := by omega
  have e2 : max (k : ℤ) 1 = k := by omega
  refine ⟨_, _, _, _, render_micro_ok fun q hq => (h2 q hq).1, render_micro_ok h3, ?_⟩
  intro f hf i j
  rw [e1, e2, Int.toNat_natCast, Int.toNat_natCast, micro_sum D d (fun q hq => (h2 q hq).1) (by omega), micro_sum D d1 h3 hk]
  exact first_sum h1 h2 rfl hk hkn hf D fun q q1 h => by rw [h.micro]

/-- C118, macro: the same for the projected volumes, whenever both renderings give images. -/
theorem C118_first_frames_macro (x : Xfab) (p : Polycrystal) (b : Beam) (a T o : V3) (w : ℝ) (k n : ℕ) (hk : 1 ≤ k) (hkn : k ≤ n) (m m1 : Motion)
    (hm : Motion.new a w T o = .ok m) (hm1 : Motion.new a ((k : ℝ) / n * w) (((k : ℝ) / n) • T) o = .ok m1) (lo hi : ℝ) (det : Option Detector)
    (d d1 : PeaksDict) (p' p1' : Polycrystal) (hd : p.diffract x b m lo hi det = .ok (d, p')) (hd1 : p.diffract x b m1 lo hi det = .ok (d1, p1'))
    (D : Detector) (env : RenderEnv) (mesh : TetraMesh) (ml : Option ℝ) (mi : ℝ) (t t1 : Stack) (r r1 : PeaksDict)
    (ht : D.render env d mesh n .macro ml mi = .ok (some t, r)) (ht1 : D.render env d1 mesh k .macro ml mi = .ok (some t1, r1)) :
    ∀ f < k, ∀ i j, t f i j = t1 f i j := by
  obtain ⟨h1, h2, h3, h4, h5, h6, h7, h8⟩ := first_setup hk hkn hm hm1 hd hd1
  have e1 : max (n : ℤ) 1 = n := by omega
  have e2 : max (k : ℤ) 1 = k := by omega
  have ok : ∀ {d : PeaksDict} {n : ℕ} {t : Stack} {r : PeaksDict}, max (n : ℤ) 1 = n → D.render env d mesh n .macro ml mi = .ok (some t, r) →
      D.renderMacro env d.beam mesh d.motion (D.peaksIntersection d n).peaks n = .ok (some t) := by
    intro d n t r e h
    rw [render_macro, e, Int.toNat_natCast] at h
    cases hr : D.renderMacro env d.beam mesh d.motion (D.peaksIntersection d n).peaks n with
    | error e => rw [hr] at h; cases h
    | ok s =>
      rw [hr] at h
      obtain ⟨rfl, -⟩ := Prod.mk.inj (Except.ok.inj h)
      rfl
  intro f hf i j
  rw [macro_sum D env mesh d (fun q hq => (h2 q hq).1) (by omega) (ok e1 ht) (by omega), macro_sum D env mesh d1 h3 hk (ok e2 ht1) hf]
  congr 1
  funext i j
  exact first_sum h1 h2 rfl hk hkn hf D fun q q1 h => by rw [h4, h5, h6, h7, h.macro D env b h8 mesh]

/-! ### not vacuous -/

theorem arctan_half : Real.arctan (1 / 2) ≤ 1 / 2 := by
  have h0 : 0 ≤ Real.arctan (1 / 2) := Real.arctan_nonneg.mpr (by norm_num)
  have := Real.le_tan h0 (Real.arctan_lt_pi_div_two _)
  rwa [Real.tan_arctan] at this

/-- the scene, rotated about z by any angle, can be diffracted -/
theorem scene_any_angle (m : Motion) (hax : m.axis = demoZ.axis) :
    ∃ d p', scenePoly.diffract sceneX demoBeam m 0 (Real.pi / 2) none = .ok (d, p') := by
  have hs := scene_setup 0 (Real.pi / 2) (by rw [Real.sin_zero]; positivity) (by
    rw [Real.sin_pi_div_two]
    have : Real.sqrt 2 ≤ 2 := by rw [Real.sqrt_le_left (by norm_num)]; norm_num
    linarith)
  have hph : scenePoly.setupPhases sceneX demoBeam.wavelength 0 (Real.pi / 2) =
      { scenePoly with phases := [⟨[1, 1, 1, 90, 90, 90], "P1", none, [⟨1, 0, 0⟩], none⟩] } := by
    simp only [Polycrystal.setupPhases, scenePoly, polyOf, List.map]; rw [hs]
  have hrows : ∃ A, allPhaseRows (scenePoly.setupPhases sceneX demoBeam.wavelength 0 (Real.pi / 2)).crystal demoBeam m = A ++ A := by
    rw [hph]
    refine ⟨elemRows Prod.fst (Polycrystal.crystal { scenePoly with phases := [⟨[1, 1, 1, 90, 90, 90], "P1", none, [⟨1, 0, 0⟩], none⟩] })
      demoBeam m 0 ⟨[1, 1, 1, 90, 90, 90], "P1", none, [⟨1, 0, 0⟩], none⟩ 0, ?_⟩
    have h1 : allPhaseRows (Polycrystal.crystal { scenePoly with phases := [⟨[1, 1, 1, 90, 90, 90], "P1", none, [⟨1, 0, 0⟩], none⟩] }) demoBeam m =
        phaseRows (Polycrystal.crystal { scenePoly with phases := [⟨[1, 1, 1, 90, 90, 90], "P1", none, [⟨1, 0, 0⟩], none⟩] }) demoBeam m 0
          ⟨[1, 1, 1, 90, 90, 90], "P1", none, [⟨1, 0, 0⟩], none⟩ := by
      unfold allPhaseRows
      show (List.range 1).flatMap _ = _
      rw [List.range_one, List.flatMap_cons, List.flatMap_nil, List.append_nil]
      rfl
    have hg : grainIndices (Polycrystal.crystal { scenePoly with phases := [⟨[1, 1, 1, 90, 90, 90], "P1", none, [⟨1, 0, 0⟩], none⟩] }).phaseMap 0 = [0] := by
      show grainIndices [0] 0 = [0]
      simp [grainIndices, List.range_succ]
    rw [h1, phaseRows_elems, hg]
    simp only [List.flatMap_cons, List.flatMap_nil, List.append_nil]
    congr 1
    rw [elemRows_planes, elemRows_planes]
    have hr : ∀ r ∈ reflections ⟨[1, 1, 1, 90, 90, 90], "P1", none, [⟨1, 0, 0⟩], none⟩, r.1 = ⟨1, 0, 0⟩ := by
      intro r hr
      obtain rfl := List.mem_singleton.mp hr
      rfl
    apply List.filterMap_congr
    intro r hr'
    have e := hr r (List.mem_filter.mp hr').1
    unfold planeRow
    rw [e]
    have hroots := scene_roots
    rw [← hax] at hroots
    have e2 : getG ((Polycrystal.crystal { scenePoly with phases := [⟨[1, 1, 1, 90, 90, 90], "P1", none, [⟨1, 0, 0⟩], none⟩] }).orientation.getD 0 0)
        ((Polycrystal.crystal { scenePoly with phases := [⟨[1, 1, 1, 90, 90, 90], "P1", none, [⟨1, 0, 0⟩], none⟩] }).eB.getD 0 0) (HKL.toV ⟨1, 0, 0⟩) =
        getG 1 sceneB ⟨1, 0, 0⟩ := by
      show getG 1 sceneB (HKL.toV ⟨1, 0, 0⟩) = _
      congr 1
      ext <;> simp [HKL.toV]
    have e3 : demoBeam.waveVector = ⟨1, 0, 0⟩ := rfl
    dsimp only
    rw [e2, e3, hroots]
  obtain ⟨A, hA⟩ := hrows
  have hd := diffract_limits (x := sceneX) (p := scenePoly) (b := demoBeam) (m := m) (lo := 0) (hi := Real.pi / 2) (lo' := 0) (hi' := Real.pi / 2)
    (det := none) rfl
  rw [hA, if_neg (by rintro ⟨h, -⟩; cases h), if_neg (by rw [List.length_append]; omega)] at hd
  exact ⟨_, _, hd⟩

/-- the hypotheses of C118 are met with peaks in the first part of the scan: three quarters of a quarter turn -/
example : ∃ m1 d d1 p' p1', Motion.new ⟨0, 0, 1⟩ (Real.pi / 2) 0 0 = .ok demoZ ∧
    Motion.new ⟨0, 0, 1⟩ (((3 : ℕ) : ℝ) / (4 : ℕ) * (Real.pi / 2)) ((((3 : ℕ) : ℝ) / (4 : ℕ)) • 0) 0 = .ok m1 ∧
    scenePoly.diffract sceneX demoBeam demoZ 0 (Real.pi / 2) none = .ok (d, p') ∧
    scenePoly.diffract sceneX demoBeam m1 0 (Real.pi / 2) none = .ok (d1, p1') ∧ d1.peaks ≠ [] := by
  have hp := Real.pi_pos
  have hax : axisAccepted ⟨0, 0, 1⟩ := by unfold axisAccepted allclose; rw [norm_ez]; norm_num
  have hm1 : Motion.new ⟨0, 0, 1⟩ (((3 : ℕ) : ℝ) / (4 : ℕ) * (Real.pi / 2)) ((((3 : ℕ) : ℝ) / (4 : ℕ)) • 0) 0 =
      .ok ⟨⟨0, 0, 1⟩, ((3 : ℕ) : ℝ) / (4 : ℕ) * (Real.pi / 2), (((3 : ℕ) : ℝ) / (4 : ℕ)) • 0, 0⟩ := by
    unfold Motion.new
    have h1 : ((3 : ℕ) : ℝ) / (4 : ℕ) * (Real.pi / 2) < Real.pi ∧ ((3 : ℕ) : ℝ) / (4 : ℕ) * (Real.pi / 2) > 0 := by
      push_cast; constructor <;> linarith
    first | rw [if_pos h1, if_pos hax] | simp [h1.1, h1.2, hax]
  obtain ⟨d1, p1', hd1⟩ := scene_any_angle ⟨⟨0, 0, 1⟩, ((3 : ℕ) : ℝ) / (4 : ℕ) * (Real.pi / 2), (((3 : ℕ) : ℝ) / (4 : ℕ)) • 0, 0⟩ rfl
  obtain ⟨d, p', hd⟩ := scene_any_angle demoZ rfl
  refine ⟨_, d, d1, p', p1', demoZ_new, hm1, hd, hd1, ?_⟩
  obtain ⟨h1, -⟩ := first_setup (k := 3) (n := 4) (by norm_num) (by norm_num) demoZ_new hm1 hd hd1
  -- the peak of the scene is at time 2 arctan (1/2) / (π/2)
  obtain ⟨d', hd', -, -, t, ht, hpk⟩ := tangent_scene 1 sceneB (sceneMesh.espherecentroids.getD 0 0) (scenePoly.meshVolumes.getD 0 0)
    ⟨[1, 1, 1, 90, 90, 90], "P1", none, [⟨1, 0, 0⟩], none⟩ rfl rfl demoZ rfl norm_ez rfl rfl scene_sphere scene_roots
  obtain ⟨lo', hi', hl, hp', hc⟩ := Polycrystal.diffract_ok hd
  obtain ⟨rfl, rfl⟩ := Prod.mk.inj (Except.ok.inj hl)
  have hs := scene_setup 0 (Real.pi / 2) (by rw [Real.sin_zero]; positivity) (by
    rw [Real.sin_pi_div_two]
    have : Real.sqrt 2 ≤ 2 := by rw [Real.sqrt_le_left (by norm_num)]; norm_num
    linarith)
  have hph : scenePoly.setupPhases sceneX demoBeam.wavelength 0 (Real.pi / 2) =
      { scenePoly with phases := [⟨[1, 1, 1, 90, 90, 90], "P1", none, [⟨1, 0, 0⟩], none⟩] } := by
    simp only [Polycrystal.setupPhases, scenePoly, polyOf, List.map]; rw [hs]
  rw [hph] at hp'
  have hcr : p'.crystal = ⟨.torch, [0], [⟨[1, 1, 1, 90, 90, 90], "P1", none, [⟨1, 0, 0⟩], none⟩], [1], [sceneB],
          [sceneMesh.espherecentroids.getD 0 0], [scenePoly.meshVolumes.getD 0 0]⟩ := by rw [hp']; rfl
  rw [hcr, hd'] at hc
  have hdd := Except.ok.inj hc
  subst hdd
  have ht34 : t ≤ (3 : ℕ) / (4 : ℕ) := by
    have ha := arctan_half
    have hp3 := Real.pi_gt_three
    have ht' : Real.pi / 2 * t = 2 * Real.arctan (1 / 2) := ht
    have : Real.pi * t ≤ Real.pi * (2 / 3) := by linarith
    have := le_of_mul_le_mul_left this hp
    push_cast; linarith
  intro hnil
  rw [hnil, List.forall₂_nil_right_iff, hpk] at h1
  have hmem := List.filter_eq_nil_iff.mp h1 _ List.mem_cons_self
  apply hmem
  rw [decide_eq_true_eq]
  exact ⟨t, ⟨6, rfl, rfl⟩, ht34⟩

end XRD
