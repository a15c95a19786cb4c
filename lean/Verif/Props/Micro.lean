import Verif.Lemmas.Image
import Verif.SpecImage
import Verif.Props.Detector2
import Verif.Props.Scene

/-! Properties C25, C26, C27 of the `micro` rendering method. -/

namespace XRD
open V3 M3 Fl Spec
open scoped Classical

/-- names of the intersected table -/
def hitColumns : List String := peakColumns ++ ["zd", "yd", "incident_angle", "frame", "intensity_factors"]

theorem rcol_eq (row : List Fl) (name : String) {j : ℕ} (h : hitColumns.idxOf name = j) : val hitColumns row name = rcol row j := by
  unfold val rcol; rw [h]; rfl

theorem frameOf_range {n : ℤ} (hn : 1 ≤ n) (t : ℝ) : 0 ≤ frameOf n t ∧ frameOf n t < n := by
  unfold frameOf
  split_ifs
  · omega
  · refine ⟨le_max_left _ _, ?_⟩
    simp only
    omega

theorem rowFrame_range {n : ℤ} (hn : 1 ≤ n) (row : List Fl) : ∃ k : ℤ, Detector.rowFrame n row = fin k ∧ 0 ≤ k ∧ k < n := by
  unfold Detector.rowFrame
  split
  · rename_i t _
    exact ⟨_, rfl, (frameOf_range hn t).1, (frameOf_range hn t).2⟩
  · exact ⟨0, by simp, le_refl _, by omega⟩
  · split_ifs
    · exact ⟨0, rfl, le_refl _, by omega⟩
    · exact ⟨n - 1, by push_cast; rfl, by omega, by omega⟩

/-- facts about the rows of an intersected table -/
theorem hitRows {D : Detector} {d : PeaksDict} {n : ℤ} (hn : 1 ≤ n) (hlen : ∀ r ∈ d.peaks, r.length = 25) :
    ∀ r ∈ (D.peaksIntersection d n).peaks, ∃ q ∈ d.peaks, r = row30 D n q ∧ (∃ k : ℤ, rcol r 28 = k ∧ 0 ≤ k ∧ k < n) ∧
      0 < rcol r 29 ∧ rcol r 21 = rcol q 21 := by
  intro r hr
  rw [peaksIntersection_rows D d n hlen] at hr
  obtain ⟨q, hq, rfl⟩ := List.mem_map.mp hr
  obtain ⟨hq, hc⟩ := List.mem_filter.mp hq
  simp only [decide_eq_true_eq] at hc
  obtain ⟨I, hI, hI0⟩ := Fl.lt_zero_fin.mp hc.2
  obtain ⟨k, hk, hk0, hk1⟩ := rowFrame_range hn q
  have hl := hlen q hq
  have hl3 := rowIntersect_length D q
  refine ⟨q, hq, rfl, ⟨k, ?_, hk0, hk1⟩, ?_, ?_⟩
  · unfold rcol row30
    rw [List.getElem?_append_left (by simp [hl, hl3]), List.getElem?_append_right (by simp [hl, hl3])]
    simp [hl, hl3, hk]
  · unfold rcol row30
    rw [List.getElem?_append_right (by simp [hl, hl3])]
    simp [hl, hl3, hI, hI0]
  · unfold rcol row30
    rw [List.getElem?_append_left (by simp [hl, hl3]), List.getElem?_append_left (by simp [hl, hl3]),
      List.getElem?_append_left (by simp [hl])]

theorem pyInt_intCast {k : ℤ} (h : 0 ≤ k) : Detector.pyInt (k : ℝ) = k := by
  rw [pyInt_nonneg (by exact_mod_cast h)]; simp

/-- the deposits of a row with a valid frame -/
theorem microDeposits_spec {D : Detector} {row : List Fl} {k : ℤ} {n : ℕ} (hk : rcol row 28 = k) (h0 : 0 ≤ k) (h1 : k < n)
    {d : Deposit} (hd : d ∈ D.microDeposits row) :
    0 < d.v ∧ d.target n D.nz D.ny = some (k.toNat, d.z.toNat, d.y.toNat) ∧ 0 ≤ d.z ∧ 0 ≤ d.y ∧
      |(d.z : ℝ) - rcol row 25 / D.pz| ≤ D.microRadius + 1 / 2 ∧ |(d.y : ℝ) - rcol row 26 / D.py| ≤ D.microRadius + 1 / 2 := by
  unfold Detector.microDeposits at hd
  simp only [List.mem_filter, List.mem_map, decide_eq_true_eq] at hd
  obtain ⟨⟨o, ho, rfl⟩, hz0, hz1, hy0, hy1, hv⟩ := hd
  rw [mem_window] at ho
  have f1 : Detector.pyInt (rcol row 28) = k := by rw [hk, pyInt_intCast h0]
  refine ⟨lt_trans (by norm_num) hv, ?_, hz0, hy0, ?_, ?_⟩
  · unfold Deposit.target
    simp only [f1]
    rw [wrapIdx_of_lt h0 h1, wrapIdx_of_lt hz0 hz1, wrapIdx_of_lt hy0 hy1]
  · have := roundEven_near (rcol row 25 / D.pz)
    have h2 : |(o.1 : ℝ)| ≤ D.microRadius := by exact_mod_cast ho.1
    push_cast
    rw [abs_le] at *
    constructor <;> linarith [this.1, this.2, h2.1, h2.2]
  · have := roundEven_near (rcol row 26 / D.py)
    have h2 : |(o.2 : ℝ)| ≤ D.microRadius := by exact_mod_cast ho.2
    push_cast
    rw [abs_le] at *
    constructor <;> linarith [this.1, this.2, h2.1, h2.2]

theorem microW_pos (D : Detector) (a b : ℝ) (o : ℤ × ℤ) : 0 < D.microW a b o := Real.exp_pos _

theorem sum_map_mul_div (l : List (ℤ × ℤ)) (w : ℤ × ℤ → ℝ) (T c : ℝ) :
    (l.map fun o => w o / T * c).sum = (l.map w).sum / T * c := by
  induction l with
  | nil => simp
  | cons a l ih => simp only [List.map_cons, List.sum_cons, ih]; ring

theorem window_sum_nonneg (D : Detector) (a b : ℝ) (r : ℕ) : 0 ≤ ((Detector.window r).map (D.microW a b)).sum := by
  apply List.sum_nonneg
  intro x hx
  obtain ⟨o, _, rfl⟩ := List.mem_map.mp hx
  exact (microW_pos _ _ _ _).le

/-- one peak deposits at most its power -/
theorem microDeposits_total_le (D : Detector) (row : List Fl) (h : 0 ≤ rcol row 29 * rcol row 21) :
    ((D.microDeposits row).map Deposit.v).sum ≤ rcol row 29 * rcol row 21 := by
  unfold Detector.microDeposits
  simp only
  set S := ((Detector.window D.microRadius).map (D.microW (rcol row 25 / D.pz) (rcol row 26 / D.py))).sum with hS
  have hS0 : 0 ≤ S := window_sum_nonneg _ _ _ _
  have hT : 0 < S + 1 / 10 ^ 12 := by positivity
  refine (sum_filter_le _ _ Deposit.v ?_).trans ?_
  · intro d hd
    obtain ⟨o, _, rfl⟩ := List.mem_map.mp hd
    have := microW_pos D (rcol row 25 / D.pz) (rcol row 26 / D.py) o
    simp only
    positivity
  · rw [List.map_map]
    show ((Detector.window D.microRadius).map fun o => D.microW _ _ o / (S + 1 / 10 ^ 12) * (rcol row 29 * rcol row 21)).sum ≤ _
    rw [sum_map_mul_div, ← hS]
    have : S / (S + 1 / 10 ^ 12) ≤ 1 := by rw [div_le_one hT]; linarith [show (0:ℝ) < 1 / 10 ^ 12 by norm_num]
    nlinarith

/-- what `render(method="micro")` returns -/
theorem render_micro (D : Detector) (env : RenderEnv) (d : PeaksDict) (mesh : TetraMesh) (frames : ℤ) (ml : Option ℝ) (mi : ℝ) :
    D.render env d mesh frames .micro ml mi =
      (D.renderMicro env.freeGb (D.peaksIntersection d (max frames 1)).peaks (max frames 1).toNat).map
        fun t => (some t, D.peaksIntersection d (max frames 1)) := by
  have : (if frames < 1 then 1 else frames) = max frames 1 := by split_ifs <;> omega
  unfold Detector.render
  simp only [this]

theorem render_micro_ok {D : Detector} {env : RenderEnv} {d : PeaksDict} {mesh : TetraMesh} {frames : ℤ} {ml : Option ℝ} {mi : ℝ}
    (hlen : ∀ r ∈ d.peaks, r.length = 25) :
    D.render env d mesh frames .micro ml mi = .ok
      (some (stackOf (max frames 1).toNat D.nz D.ny ((D.peaksIntersection d (max frames 1)).peaks.flatMap D.microDeposits)),
        D.peaksIntersection d (max frames 1)) := by
  rw [render_micro, renderMicro_eq, if_neg]
  · rfl
  · rintro ⟨e, he, hn⟩
    obtain ⟨r, hr, he⟩ := List.mem_flatMap.mp he
    obtain ⟨q, hq, -, ⟨k, hk, h0, h1⟩, -⟩ := hitRows (by omega : 1 ≤ max frames 1) hlen r hr
    have := (microDeposits_spec (n := (max frames 1).toNat) hk h0 (by omega) he).2.1
    rw [this] at hn; cases hn

theorem flatMap_sum {α : Type} (l : List α) (g : α → List Deposit) :
    ((l.flatMap g).map Deposit.v).sum = (l.map fun a => ((g a).map Deposit.v).sum).sum := by
  induction l with
  | nil => rfl
  | cons a l ih => simp [ih]

/-- C25: rendering with the micro method never fails, gives non-negative pixels, deposits in total at most the sum of intensity
times volume of the peaks that hit the detector, and a pixel is lit only if it lies in the frame of some peak within the
kernel radius of that peak's hit. -/
theorem C25_micro_never_creates_intensity (D : Detector) (env : RenderEnv) (d : PeaksDict) (mesh : TetraMesh) (frames : ℤ)
    (ml : Option ℝ) (mi : ℝ) (hcol : d.columns = peakColumns) (hlen : ∀ r ∈ d.peaks, r.length = 25)
    (hvol : ∀ r ∈ d.peaks, 0 ≤ val d.columns r "volumes") :
    ∃ t out, D.render env d mesh frames .micro ml mi = .ok (some t, out) ∧ out = D.peaksIntersection d (max frames 1) ∧
      (∀ f i j, 0 ≤ t f i j) ∧
      total (max frames 1).toNat D.nz D.ny t ≤ power out.columns out.peaks ∧
      ∀ f i j, t f i j ≠ 0 → f < (max frames 1).toNat ∧ i < D.nz ∧ j < D.ny ∧
        ∃ r ∈ out.peaks, val out.columns r "frame" = f ∧
          |(i : ℝ) - val out.columns r "zd" / D.pz| ≤ max 3 (3 * Real.sqrt ((7 / 10) ^ 2 + D.sigma ^ 2) + 1) + 1 / 2 ∧
          |(j : ℝ) - val out.columns r "yd" / D.py| ≤ max 3 (3 * Real.sqrt ((7 / 10) ^ 2 + D.sigma ^ 2) + 1) + 1 / 2 := by
  set n := max frames 1 with hn
  have hn1 : 1 ≤ n := le_max_right _ _
  have hh := hitRows (D := D) hn1 hlen
  have hc : (D.peaksIntersection d n).columns = hitColumns := by
    show d.columns ++ _ = _; rw [hcol]; rfl
  have hds : ∀ e ∈ (D.peaksIntersection d n).peaks.flatMap D.microDeposits, ∃ r ∈ (D.peaksIntersection d n).peaks, ∃ k : ℤ,
      rcol r 28 = k ∧ 0 ≤ k ∧ 0 < e.v ∧ e.target n.toNat D.nz D.ny = some (k.toNat, e.z.toNat, e.y.toNat) ∧ 0 ≤ e.z ∧ 0 ≤ e.y ∧
      |(e.z : ℝ) - rcol r 25 / D.pz| ≤ D.microRadius + 1 / 2 ∧ |(e.y : ℝ) - rcol r 26 / D.py| ≤ D.microRadius + 1 / 2 := by
    intro e he
    obtain ⟨r, hr, he⟩ := List.mem_flatMap.mp he
    obtain ⟨q, hq, -, ⟨k, hk, h0, h1⟩, -⟩ := hh r hr
    obtain ⟨a1, a2⟩ := microDeposits_spec (n := n.toNat) hk h0 (by omega) he
    exact ⟨r, hr, k, hk, h0, a1, a2⟩
  refine ⟨_, _, render_micro_ok hlen, rfl, ?_, ?_, ?_⟩
  · exact stackOf_nonneg fun e he => by obtain ⟨r, hr, k, -, -, h, -⟩ := hds e he; exact h.le
  · have ht := stackTotal_stackOf n.toNat D.nz D.ny ((D.peaksIntersection d n).peaks.flatMap D.microDeposits)
      (fun e he => by obtain ⟨r, hr, k, -, -, -, h, -⟩ := hds e he; rw [h]; simp)
    have ht' : total n.toNat D.nz D.ny (stackOf n.toNat D.nz D.ny ((D.peaksIntersection d n).peaks.flatMap D.microDeposits)) =
      (((D.peaksIntersection d n).peaks.flatMap D.microDeposits).map Deposit.v).sum := ht
    rw [ht', flatMap_sum, hc]
    unfold power
    apply List.sum_le_sum
    intro r hr
    rw [rcol_eq r "intensity_factors" (j := 29) rfl, rcol_eq r "volumes" (j := 21) rfl]
    apply microDeposits_total_le
    obtain ⟨q, hq, -, -, h29, h21⟩ := hh r hr
    have := hvol q hq
    rw [hcol] at this
    have e : val peakColumns q "volumes" = rcol q 21 := rfl
    rw [e, ← h21] at this
    positivity
  · intro f i j hne
    obtain ⟨e, he, ht⟩ := stackOf_ne_zero hne
    obtain ⟨l1, l2, l3⟩ := target_lt ht
    obtain ⟨r, hr, k, hk, hk0, -, ht2, hz, hy, b1, b2⟩ := hds e he
    rw [ht2] at ht
    simp only [Option.some.injEq, Prod.mk.injEq] at ht
    obtain ⟨rfl, rfl, rfl⟩ := ht
    have hr3 : (D.microRadius : ℝ) ≤ max 3 (3 * Real.sqrt ((7 / 10) ^ 2 + D.sigma ^ 2) + 1) := by
      unfold Detector.microRadius Detector.microSigma
      push_cast
      apply max_le_max (le_refl _)
      have := Nat.floor_le (show 0 ≤ 3 * Real.sqrt ((7 / 10) ^ 2 + D.sigma ^ 2) by positivity)
      linarith
    refine ⟨l1, l2, l3, r, hr, ?_, ?_, ?_⟩
    · rw [hc, rcol_eq r "frame" (j := 28) rfl, hk]
      exact_mod_cast (Int.toNat_of_nonneg hk0).symm
    · rw [hc, rcol_eq r "zd" (j := 25) rfl]
      have : ((e.z.toNat : ℕ) : ℝ) = (e.z : ℝ) := by exact_mod_cast Int.toNat_of_nonneg hz
      rw [this]; linarith
    · rw [hc, rcol_eq r "yd" (j := 26) rfl]
      have : ((e.y.toNat : ℕ) : ℝ) = (e.y : ℝ) := by exact_mod_cast Int.toNat_of_nonneg hy
      rw [this]; linarith

/-- C26: the image does not depend on the reported free memory, on the order of the peaks, on the mesh or on the limits. -/
theorem C26_micro_order_and_batch_independent (D : Detector) (env env' : RenderEnv) (d d' : PeaksDict) (mesh mesh' : TetraMesh)
    (frames : ℤ) (ml ml' : Option ℝ) (mi mi' : ℝ) (hp : d.peaks.Perm d'.peaks) :
    (D.render env d mesh frames .micro ml mi).map (·.1) = (D.render env' d' mesh' frames .micro ml' mi').map (·.1) := by
  have hq : ∀ n, (D.peaksIntersection d n).peaks.Perm (D.peaksIntersection d' n).peaks := by
    intro n
    unfold Detector.peaksIntersection
    simp only
    exact ((((((hp.map _).filter _).map _).map _).filter _))
  rw [render_micro, render_micro]
  set n := max frames 1
  have hds : ((D.peaksIntersection d n).peaks.flatMap D.microDeposits).Perm ((D.peaksIntersection d' n).peaks.flatMap D.microDeposits) :=
    (hq n).flatMap_right _
  rw [renderMicro_eq, renderMicro_eq, stackOf_perm hds]
  have : (∃ e ∈ (D.peaksIntersection d n).peaks.flatMap D.microDeposits, e.target n.toNat D.nz D.ny = none) ↔
      (∃ e ∈ (D.peaksIntersection d' n).peaks.flatMap D.microDeposits, e.target n.toNat D.nz D.ny = none) := by
    constructor
    · rintro ⟨e, he, h⟩; exact ⟨e, hds.mem_iff.mp he, h⟩
    · rintro ⟨e, he, h⟩; exact ⟨e, hds.mem_iff.mpr he, h⟩
  by_cases h : ∃ e ∈ (D.peaksIntersection d n).peaks.flatMap D.microDeposits, e.target n.toNat D.nz D.ny = none
  · rw [if_pos h, if_pos (this.mp h)]; rfl
  · rw [if_neg h, if_neg (fun h' => h (this.mpr h'))]; rfl

/-- C26: the image of a list of peaks is the sum of the images of its parts. -/
theorem C26_micro_additive (D : Detector) (env : RenderEnv) (d : PeaksDict) (p q : List (List Fl)) (mesh : TetraMesh) (frames : ℤ)
    (ml : Option ℝ) (mi : ℝ) (hlen : ∀ r ∈ p ++ q, r.length = 25) :
    ∃ t t1 t2 o o1 o2, D.render env { d with peaks := p ++ q } mesh frames .micro ml mi = .ok (some t, o) ∧
      D.render env { d with peaks := p } mesh frames .micro ml mi = .ok (some t1, o1) ∧
      D.render env { d with peaks := q } mesh frames .micro ml mi = .ok (some t2, o2) ∧
      o.peaks = o1.peaks ++ o2.peaks ∧ ∀ f i j, t f i j = t1 f i j + t2 f i j := by
  have happ : (D.peaksIntersection { d with peaks := p ++ q } (max frames 1)).peaks =
      (D.peaksIntersection { d with peaks := p } (max frames 1)).peaks ++
      (D.peaksIntersection { d with peaks := q } (max frames 1)).peaks := by
    unfold Detector.peaksIntersection
    simp only [List.map_append, List.filter_append]
  refine ⟨_, _, _, _, _, _, render_micro_ok hlen, render_micro_ok (fun r hr => hlen r (List.mem_append_left _ hr)),
    render_micro_ok (fun r hr => hlen r (List.mem_append_right _ hr)), happ, ?_⟩
  intro f i j
  rw [happ, List.flatMap_append, stackOf_append]

/-! ### C27 for micro -/

/-- erase the frame of a deposit -/
def Deposit.noF (d : Deposit) : Deposit := ⟨0, d.z, d.y, d.v⟩

theorem microDeposits_noF {D : Detector} {r r' : List Fl} (h25 : rcol r 25 = rcol r' 25) (h26 : rcol r 26 = rcol r' 26)
    (h29 : rcol r 29 = rcol r' 29) (h21 : rcol r 21 = rcol r' 21) (h28 : rcol r' 28 = 0) :
    (D.microDeposits r).map Deposit.noF = D.microDeposits r' := by
  unfold Detector.microDeposits
  simp only [h25, h26, h29, h21, h28]
  rw [List.filter_map, List.filter_map, List.map_map]
  have h0 : Detector.pyInt 0 = 0 := by simp [Detector.pyInt]
  rw [h0]
  rfl

theorem noF_target {d : Deposit} {n h w f i j : ℕ} (ht : d.target n h w = some (f, i, j)) :
    d.noF.target 1 h w = some (0, i, j) := by
  unfold Deposit.target at ht ⊢
  split at ht
  · rename_i a b c ha hb hc
    simp only [Option.some.injEq, Prod.mk.injEq] at ht
    obtain ⟨rfl, rfl, rfl⟩ := ht
    have : wrapIdx 0 1 = some 0 := by simp [wrapIdx]
    simp only [Deposit.noF, hb, hc, this]
  · cases ht

theorem stackOf_noF (n h w : ℕ) (ds : List Deposit) (hd : ∀ d ∈ ds, d.target n h w ≠ none) (i j : ℕ) :
    ∑ f ∈ Finset.range n, stackOf n h w ds f i j = stackOf 1 h w (ds.map Deposit.noF) 0 i j := by
  induction ds with
  | nil => simp [stackOf_nil]
  | cons d ds ih =>
    rw [List.map_cons, stackOf_cons, ← ih fun e he => hd e (List.mem_cons_of_mem _ he)]
    simp only [stackOf_cons, Finset.sum_add_distrib]
    congr 1
    obtain ⟨⟨f, a, b⟩, ht⟩ := Option.ne_none_iff_exists'.mp (hd d List.mem_cons_self)
    rw [ht, noF_target ht]
    have hf := (target_lt ht).1
    by_cases hab : a = i ∧ b = j
    · obtain ⟨rfl, rfl⟩ := hab
      rw [if_pos rfl, Finset.sum_eq_single f]
      · rw [if_pos rfl]; rfl
      · intro c _ hc; rw [if_neg]; simp; exact fun h => hc h.symm
      · intro hh; exact absurd (Finset.mem_range.mpr hf) hh
    · rw [if_neg (by simpa using hab)]
      apply Finset.sum_eq_zero
      intro c _
      rw [if_neg]
      simp only [Option.some.injEq, Prod.mk.injEq, not_and]
      intro _ h1 h2; exact hab ⟨h1, h2⟩

/-- the two tables of an `n`-frame and a one-frame intersection differ in the frame column only -/
theorem row30_cols (D : Detector) (n : ℤ) {q : List Fl} (hl : q.length = 25) :
    (∀ j, j ≠ 28 → (row30 D n q)[j]? = (row30 D 1 q)[j]?) ∧ rcol (row30 D 1 q) 28 = 0 := by
  have hl3 := rowIntersect_length D q
  constructor
  · intro j hj
    unfold row30
    rcases lt_or_ge j 28 with h | h
    · have e : ∀ m, (q ++ D.rowIntersect q ++ [Detector.rowFrame m q] ++ [D.rowIntensity q])[j]? = (q ++ D.rowIntersect q)[j]? := by
        intro m
        rw [List.getElem?_append_left (by simp [hl, hl3]; omega), List.getElem?_append_left (by simp [hl, hl3]; omega)]
      rw [e, e]
    · rw [List.getElem?_append_right (by simp [hl, hl3]; omega), List.getElem?_append_right (by simp [hl, hl3]; omega)]
      simp [hl, hl3]
  · obtain ⟨k, hk, h0, h1⟩ := rowFrame_range (le_refl 1) q
    have : k = 0 := by omega
    subst this
    unfold rcol row30
    rw [List.getElem?_append_left (by simp [hl, hl3]), List.getElem?_append_right (by simp [hl, hl3])]
    simp [hl, hl3, hk]

theorem rcol_congr {r r' : List Fl} {j : ℕ} (h : r[j]? = r'[j]?) : rcol r j = rcol r' j := by unfold rcol; rw [h]

/-- C27, micro: adding up the frames gives the integrated image. -/
theorem C27_micro_frames_sum (D : Detector) (env : RenderEnv) (d : PeaksDict) (mesh : TetraMesh) (frames : ℤ)
    (ml : Option ℝ) (mi : ℝ) (hlen : ∀ r ∈ d.peaks, r.length = 25) :
    ∃ t t1 o o1, D.render env d mesh frames .micro ml mi = .ok (some t, o) ∧ D.render env d mesh 1 .micro ml mi = .ok (some t1, o1) ∧
      ∀ i j, ∑ f ∈ Finset.range (max frames 1).toNat, t f i j = t1 0 i j := by
  refine ⟨_, _, _, _, render_micro_ok hlen, render_micro_ok hlen, ?_⟩
  intro i j
  set n := max frames 1 with hn
  have hn1 : 1 ≤ n := le_max_right _ _
  rw [stackOf_noF]
  · have : (max (1:ℤ) 1).toNat = 1 := rfl
    rw [this, show max (1:ℤ) 1 = 1 from rfl, List.map_flatMap, peaksIntersection_rows D d n hlen, peaksIntersection_rows D d 1 hlen]
    rw [List.flatMap_map, List.flatMap_map]
    congr 1
    apply List.flatMap_congr
    intro q hq
    obtain ⟨h1, h2⟩ := row30_cols D n (hlen q (List.mem_filter.mp hq).1)
    exact microDeposits_noF (rcol_congr (h1 25 (by norm_num))) (rcol_congr (h1 26 (by norm_num))) (rcol_congr (h1 29 (by norm_num)))
      (rcol_congr (h1 21 (by norm_num))) h2
  · intro e he
    obtain ⟨r, hr, he⟩ := List.mem_flatMap.mp he
    obtain ⟨q, hq, -, ⟨k, hk, h0, h1⟩, -⟩ := hitRows hn1 hlen r hr
    rw [(microDeposits_spec (n := n.toNat) hk h0 (by omega) he).2.1]
    simp

/-! ### C25: nothing but the tails is lost -/

theorem window_length (r : ℕ) : (Detector.window r).length = (2 * r + 1) ^ 2 := by
  unfold Detector.window
  rw [List.length_flatMap]
  simp [sq]

theorem microSigma_sq (D : Detector) : D.microSigma ^ 2 = (7 / 10) ^ 2 + D.sigma ^ 2 := Real.sq_sqrt (by positivity)

theorem window_sum_ge (D : Detector) (a b : ℝ) (r : ℕ) : 12 / 25 ≤ ((Detector.window r).map (D.microW a b)).sum := by
  have h0 : ((0, 0) : ℤ × ℤ) ∈ Detector.window r := mem_window.mpr (by simp)
  have h1 : D.microW a b (0, 0) ≤ ((Detector.window r).map (D.microW a b)).sum := by
    apply List.single_le_sum
    · intro x hx
      obtain ⟨o, _, rfl⟩ := List.mem_map.mp hx
      exact (microW_pos _ _ _ _).le
    · exact List.mem_map.mpr ⟨_, h0, rfl⟩
  refine le_trans ?_ h1
  unfold Detector.microW
  simp only [add_zero]
  have ha := roundEven_near a
  have hb := roundEven_near b
  have ha2 : ((roundEven a : ℝ) - a) ^ 2 ≤ 1 / 4 := by rw [← sq_abs]; nlinarith [abs_nonneg ((roundEven a : ℝ) - a)]
  have hb2 : ((roundEven b : ℝ) - b) ^ 2 ≤ 1 / 4 := by rw [← sq_abs]; nlinarith [abs_nonneg ((roundEven b : ℝ) - b)]
  refine le_trans ?_ (Real.add_one_le_exp _)
  rw [microSigma_sq, neg_div]
  have hs : 0 ≤ D.sigma ^ 2 := sq_nonneg _
  have : (((roundEven a : ℝ) - a) ^ 2 + ((roundEven b : ℝ) - b) ^ 2) / (2 * ((7 / 10) ^ 2 + D.sigma ^ 2)) ≤ 13 / 25 := by
    rw [div_le_iff₀ (by positivity)]; nlinarith
  linarith

/-- one peak well inside the frame deposits all its power but the cut-off tails -/
theorem microDeposits_total_ge (D : Detector) (row : List Fl) (h : 0 ≤ rcol row 29 * rcol row 21)
    (hz0 : (D.microRadius : ℝ) + 1 / 2 ≤ rcol row 25 / D.pz) (hz1 : rcol row 25 / D.pz + (D.microRadius + 1 / 2) < D.nz)
    (hy0 : (D.microRadius : ℝ) + 1 / 2 ≤ rcol row 26 / D.py) (hy1 : rcol row 26 / D.py + (D.microRadius + 1 / 2) < D.ny) :
    rcol row 29 * rcol row 21 * (1 - 3 / 10 ^ 12) - (2 * D.microRadius + 1) ^ 2 / 10 ^ 6 ≤ ((D.microDeposits row).map Deposit.v).sum := by
  unfold Detector.microDeposits
  simp only
  set S := ((Detector.window D.microRadius).map (D.microW (rcol row 25 / D.pz) (rcol row 26 / D.py))).sum with hS
  have hS0 : 12 / 25 ≤ S := window_sum_ge _ _ _ _
  have hT : 0 < S + 1 / 10 ^ 12 := by positivity
  refine le_trans ?_ (le_sum_filter _ _ Deposit.v (c := 1 / 10 ^ 6) (by norm_num) ?_)
  · rw [List.map_map, List.length_map, window_length]
    have hsum : (List.map (Deposit.v ∘ fun o : ℤ × ℤ => (⟨Detector.pyInt (rcol row 28), roundEven (rcol row 25 / D.pz) + o.1,
        roundEven (rcol row 26 / D.py) + o.2, D.microW (rcol row 25 / D.pz) (rcol row 26 / D.py) o / (S + 1 / 10 ^ 12) *
        (rcol row 29 * rcol row 21)⟩ : Deposit)) (Detector.window D.microRadius)).sum = S / (S + 1 / 10 ^ 12) * (rcol row 29 * rcol row 21) :=
      sum_map_mul_div _ _ _ _
    rw [hsum]
    have : 1 - 3 / 10 ^ 12 ≤ S / (S + 1 / 10 ^ 12) := by
      rw [le_div_iff₀ hT]; nlinarith
    push_cast
    nlinarith
  · intro d hd hn
    obtain ⟨o, ho, rfl⟩ := List.mem_map.mp hd
    rw [mem_window] at ho
    simp only at hn ⊢
    by_contra hv
    push Not at hv
    apply hn
    have n1 := abs_le.mp (roundEven_near (rcol row 25 / D.pz))
    have n2 := abs_le.mp (roundEven_near (rcol row 26 / D.py))
    have o1 : |(o.1 : ℝ)| ≤ D.microRadius := by exact_mod_cast ho.1
    have o2 : |(o.2 : ℝ)| ≤ D.microRadius := by exact_mod_cast ho.2
    rw [abs_le] at o1 o2
    refine ⟨?_, ?_, ?_, ?_, hv⟩
    · have : (0 : ℝ) ≤ ((roundEven (rcol row 25 / D.pz) + o.1 : ℤ) : ℝ) := by push_cast; linarith [n1.1, o1.1]
      exact_mod_cast this
    · have : ((roundEven (rcol row 25 / D.pz) + o.1 : ℤ) : ℝ) < ((D.nz : ℤ) : ℝ) := by push_cast; linarith [n1.2, o1.2]
      exact_mod_cast this
    · have : (0 : ℝ) ≤ ((roundEven (rcol row 26 / D.py) + o.2 : ℤ) : ℝ) := by push_cast; linarith [n2.1, o2.1]
      exact_mod_cast this
    · have : ((roundEven (rcol row 26 / D.py) + o.2 : ℤ) : ℝ) < ((D.ny : ℤ) : ℝ) := by push_cast; linarith [n2.2, o2.2]
      exact_mod_cast this

/-- C25: peaks that hit the detector at least one kernel radius inside the border keep their power up to a relative `3e-12` and
the cut-off of `1e-6` per kernel pixel. -/
theorem C25_micro_keeps_interior_intensity (D : Detector) (env : RenderEnv) (d : PeaksDict) (mesh : TetraMesh) (frames : ℤ)
    (ml : Option ℝ) (mi : ℝ) (hcol : d.columns = peakColumns) (hlen : ∀ r ∈ d.peaks, r.length = 25)
    (hvol : ∀ r ∈ d.peaks, 0 ≤ val d.columns r "volumes") (R : ℝ)
    (hR : max 3 (3 * Real.sqrt ((7 / 10) ^ 2 + D.sigma ^ 2) + 1) + 1 / 2 ≤ R)
    (hin : ∀ r ∈ (D.peaksIntersection d (max frames 1)).peaks,
      R ≤ val hitColumns r "zd" / D.pz ∧ val hitColumns r "zd" / D.pz + R < D.nz ∧
      R ≤ val hitColumns r "yd" / D.py ∧ val hitColumns r "yd" / D.py + R < D.ny) :
    ∃ t out, D.render env d mesh frames .micro ml mi = .ok (some t, out) ∧
      power out.columns out.peaks * (1 - 3 / 10 ^ 12) - out.peaks.length * (2 * R) ^ 2 / 10 ^ 6 ≤ total (max frames 1).toNat D.nz D.ny t := by
  set n := max frames 1 with hn
  have hn1 : 1 ≤ n := le_max_right _ _
  have hh := hitRows (D := D) hn1 hlen
  have hc : (D.peaksIntersection d n).columns = hitColumns := by
    show d.columns ++ _ = _; rw [hcol]; rfl
  refine ⟨_, _, render_micro_ok hlen, ?_⟩
  have ht := stackTotal_stackOf n.toNat D.nz D.ny ((D.peaksIntersection d n).peaks.flatMap D.microDeposits)
    (fun e he => by
      obtain ⟨r, hr, he⟩ := List.mem_flatMap.mp he
      obtain ⟨q, hq, -, ⟨k, hk, h0, h1⟩, -⟩ := hh r hr
      rw [(microDeposits_spec (n := n.toNat) hk h0 (by omega) he).2.1]; simp)
  have ht' : total n.toNat D.nz D.ny (stackOf n.toNat D.nz D.ny ((D.peaksIntersection d n).peaks.flatMap D.microDeposits)) =
    (((D.peaksIntersection d n).peaks.flatMap D.microDeposits).map Deposit.v).sum := ht
  rw [ht', flatMap_sum, hc]
  have hr3 : (D.microRadius : ℝ) ≤ max 3 (3 * Real.sqrt ((7 / 10) ^ 2 + D.sigma ^ 2) + 1) := by
    unfold Detector.microRadius Detector.microSigma
    push_cast
    apply max_le_max (le_refl _)
    have := Nat.floor_le (show 0 ≤ 3 * Real.sqrt ((7 / 10) ^ 2 + D.sigma ^ 2) by positivity)
    linarith
  have key : ∀ r ∈ (D.peaksIntersection d n).peaks, val hitColumns r "intensity_factors" * val hitColumns r "volumes" * (1 - 3 / 10 ^ 12)
      - (2 * R) ^ 2 / 10 ^ 6 ≤ ((D.microDeposits r).map Deposit.v).sum := by
    intro r hr
    obtain ⟨q, hq, -, -, h29, h21⟩ := hh r hr
    have hv := hvol q hq
    rw [hcol] at hv
    have e : val peakColumns q "volumes" = rcol q 21 := rfl
    rw [e, ← h21] at hv
    obtain ⟨a1, a2, a3, a4⟩ := hin r hr
    rw [rcol_eq r "zd" (j := 25) rfl] at a1 a2
    rw [rcol_eq r "yd" (j := 26) rfl] at a3 a4
    rw [rcol_eq r "intensity_factors" (j := 29) rfl, rcol_eq r "volumes" (j := 21) rfl]
    refine le_trans ?_ (microDeposits_total_ge D r (by positivity) (by linarith) (by linarith) (by linarith) (by linarith))
    have : (2 * (D.microRadius : ℝ) + 1) ^ 2 ≤ (2 * R) ^ 2 := by
      have : (0:ℝ) ≤ D.microRadius := Nat.cast_nonneg _
      apply pow_le_pow_left₀ <;> linarith
    linarith
  unfold power
  generalize (D.peaksIntersection d n).peaks = l at key
  induction l with
  | nil => simp
  | cons a l ih =>
    have h1 := key a List.mem_cons_self
    have h2 := ih fun r hr => key r (List.mem_cons_of_mem _ hr)
    simp only [List.map_cons, List.sum_cons, List.length_cons, Nat.cast_add, Nat.cast_one] at *
    nlinarith [h1, h2]

end XRD
