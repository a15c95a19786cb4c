import Verif.Props.FirstFrames2
import Verif.Props.Superpose

/-! Property C118 for automatic rendering. -/

namespace XRD
open V3 M3 Fl Spec
open scoped Classical

/-- the tables of a scan and of its first part -/
structure FirstDicts (l : ℝ) (a T o : V3) (w : ℝ) (d d1 : PeaksDict) : Prop where
  rows : List.Forall₂ (FirstClock l) (d.peaks.filter fun row => decide (Upto peakColumns l row)) d1.peaks
  late : ∀ q ∈ d.peaks, q.length = 25 ∧ ∃ t, q[6]? = some (fin t) ∧ t ≤ 1
  early : ∀ q ∈ d1.peaks, q.length = 25
  motion : d.motion = ⟨a, w, T, o⟩
  motion1 : d1.motion = ⟨a, l * w, l • T, o⟩
  beam : d1.beam = d.beam
  pos : 0 < l
  cols : d.columns = peakColumns
  cols1 : d1.columns = peakColumns

theorem FirstDicts.withVolume {l : ℝ} {a T o : V3} {w : ℝ} {d d1 : PeaksDict} (h : FirstDicts l a T o w d d1) (p : ℝ → Prop) :
    FirstDicts l a T o w (withVolume d p) (withVolume d1 p) := by
  refine ⟨?_, fun q hq => h.late q (List.mem_filter.mp hq).1, fun q hq => h.early q (List.mem_filter.mp hq).1, h.motion, h.motion1, h.beam, h.pos,
    h.cols, h.cols1⟩
  unfold Spec.withVolume
  simp only
  rw [List.filter_filter]
  have e : (d.peaks.filter fun r => decide (Upto peakColumns l r) && decide (p (val d.columns r "volumes"))) =
      (d.peaks.filter fun r => decide (Upto peakColumns l r)).filter fun r => decide (p (val d.columns r "volumes")) := by
    rw [List.filter_filter]
    apply List.filter_congr
    intro r _
    rw [Bool.and_comm]
  rw [e]
  have hr := h.rows
  generalize (d.peaks.filter fun r => decide (Upto peakColumns l r)) = A at hr
  generalize d1.peaks = B at hr
  induction hr with
  | nil => exact .nil
  | cons hq _ ih =>
    rename_i q q1 A B _
    have hv : val d1.columns q1 "volumes" = val d.columns q "volumes" := by
      rw [val21 h.cols1, val21 h.cols]
      exact rcol_congr (hq.rest 21 (by norm_num) (by norm_num))
    rw [List.filter_cons, List.filter_cons, hv]
    split_ifs
    · exact .cons hq ih
    · exact ih

theorem FirstDicts.micro {a T o : V3} {w : ℝ} {k n : ℕ} (hk : 1 ≤ k) (hkn : k ≤ n) {d d1 : PeaksDict}
    (h : FirstDicts ((k : ℝ) / n) a T o w d d1) (D : Detector) (env : RenderEnv) (mesh : TetraMesh) (ml : Option ℝ) (mi : ℝ) {t t1 : Stack} {r r1 : PeaksDict}
    (ht : D.render env d mesh n .micro ml mi = .ok (some t, r)) (ht1 : D.render env d1 mesh k .micro ml mi = .ok (some t1, r1)) :
    ∀ f < k, ∀ i j, t f i j = t1 f i j := by
  have e1 : max (n : ℤ) 1 = n := by omega
  have e2 : max (k : ℤ) 1 = k := by omega
  rw [render_micro_ok fun q hq => (h.late q hq).1] at ht
  rw [render_micro_ok h.early] at ht1
  obtain ⟨rfl, -⟩ := Prod.mk.inj (Except.ok.inj ht) |>.imp Option.some.inj id
  obtain ⟨rfl, -⟩ := Prod.mk.inj (Except.ok.inj ht1) |>.imp Option.some.inj id
  intro f hf i j
  rw [e1, e2, Int.toNat_natCast, Int.toNat_natCast, micro_sum D d (fun q hq => (h.late q hq).1) (by omega), micro_sum D d1 h.early hk]
  exact first_sum h.rows h.late rfl hk hkn hf D fun q q1 h => by rw [h.micro]

theorem FirstDicts.macro {a T o : V3} {w : ℝ} {k n : ℕ} (hk : 1 ≤ k) (hkn : k ≤ n) {d d1 : PeaksDict}
    (h : FirstDicts ((k : ℝ) / n) a T o w d d1) (D : Detector) (env : RenderEnv) (mesh : TetraMesh) (ml : Option ℝ) (mi : ℝ) {t t1 : Stack} {r r1 : PeaksDict}
    (ht : D.render env d mesh n .macro ml mi = .ok (some t, r)) (ht1 : D.render env d1 mesh k .macro ml mi = .ok (some t1, r1)) :
    ∀ f < k, ∀ i j, t f i j = t1 f i j := by
  have e1 : max (n : ℤ) 1 = n := by omega
  have e2 : max (k : ℤ) 1 = k := by omega
  have ok : ∀ {d : PeaksDict} {n : ℕ} {t : Stack} {r : PeaksDict}, max (n : ℤ) 1 = n → D.render env d mesh n .macro ml mi = .ok (some t, r) →
      D.renderMacro env d.beam mesh d.motion (D.peaksIntersection d n).peaks n = .ok (some t) := by
    intro d n t r e h
    rw [render_macro, e, Int.toNat_natCast] at h
    cases hr : D.renderMacro env d.beam mesh d.motion (D.peaksIntersection d n).peaks n with
    | error e => rw [hr] at h; cases h
    | ok s =>
      rw [hr] at h
      obtain ⟨rfl, -⟩ := Prod.mk.inj (Except.ok.inj h)
      rfl
  intro f hf i j
  rw [macro_sum D env mesh d (fun q hq => (h.late q hq).1) (by omega) (ok e1 ht) (by omega), macro_sum D env mesh d1 h.early hk (ok e2 ht1) hf]
  congr 1
  funext i j
  exact first_sum h.rows h.late rfl hk hkn hf D fun q q1 g => by rw [h.motion, h.motion1, h.beam, g.macro D env d.beam h.pos mesh]

theorem FirstDicts.nano {a T o : V3} {w : ℝ} {k n : ℕ} (hk : 1 ≤ k) (hkn : k ≤ n) {d d1 : PeaksDict}
    (h : FirstDicts ((k : ℝ) / n) a T o w d d1) (D : Detector) (hs : 0 < D.sigma) (hr : 0 ≤ D.maxRadius) (env : RenderEnv)
    (ha : IsArgsort env.argsortDesc) (mesh : TetraMesh) (ml : Option ℝ) (mi : ℝ) (hz : ∀ r ∈ (D.peaksIntersection d n).peaks, D.firstZero r ≤ 2) :
    ∃ t t1 o o1, D.render env d mesh n .nano ml mi = .ok (some t, o) ∧ D.render env d1 mesh k .nano ml mi = .ok (some t1, o1) ∧
      ∀ f < k, ∀ i j, t f i j = t1 f i j := by
  have hn : 1 ≤ n := by omega
  have e1 : max (n : ℤ) 1 = n := by omega
  have e2 : max (k : ℤ) 1 = k := by omega
  have hz1 : ∀ r ∈ (D.peaksIntersection d1 k).peaks, D.firstZero r ≤ 2 := by
    intro r hr'
    rw [peaksIntersection_rows D d1 k h.early] at hr'
    obtain ⟨q1, hq1, rfl⟩ := List.mem_map.mp hr'
    obtain ⟨hq1m, hq1p⟩ := List.mem_filter.mp hq1
    obtain ⟨q, hq, hc⟩ := Forall₂.right_mem h.rows q1 hq1m
    have hqd := (List.mem_filter.mp hq).1
    have hin : row30 D n q ∈ (D.peaksIntersection d n).peaks := by
      rw [peaksIntersection_rows D d n fun q hq => (h.late q hq).1]
      refine List.mem_map.mpr ⟨q, List.mem_filter.mpr ⟨hqd, ?_⟩, rfl⟩
      rw [← hc.intersect D, ← hc.intensity D]
      exact hq1p
    have := hz _ hin
    have c : ∀ j : ℕ, j ≠ 6 → j ≠ 24 → j ≠ 28 → rcol (row30 D k q1) j = rcol (row30 D n q) j := by
      intro j a6 a24 a28
      rw [rcol_congr ((row30_cols D k (h.early q1 hq1m)).1 j a28), rcol_congr ((row30_cols D n (h.late q hqd).1).1 j a28)]
      exact hc.hit D a6 a24
    unfold Detector.firstZero at this ⊢
    rwa [c 23 (by norm_num) (by norm_num) (by norm_num), c 27 (by norm_num) (by norm_num) (by norm_num)]
  refine ⟨_, _, _, _, by rw [render_nano, e1, Int.toNat_natCast, renderNano_small hs hr ha hz]; rfl,
    by rw [render_nano, e2, Int.toNat_natCast, renderNano_small hs hr ha hz1]; rfl, ?_⟩
  intro f hf i j
  beta_reduce
  rw [if_pos (by omega), if_pos hf]
  congr 1
  funext i j
  rw [nano_sum D env.j1 d (fun q hq => (h.late q hq).1) hn, nano_sum D env.j1 d1 h.early hk]
  exact first_sum h.rows h.late rfl hk hkn hf D fun q q1 h => smallAdd_congr (fun j a6 a24 _ => h.hit D a6 a24) i j

/-- C118, auto: the same for automatic rendering, whenever both renderings give images and the first dark rings of the hits with volumes
below the micro limit are within two pixels. -/
theorem C118_first_frames_auto_small_rings (x : Xfab) (p : Polycrystal) (b : Beam) (a T o : V3) (w : ℝ) (k n : ℕ) (hk : 1 ≤ k) (hkn : k ≤ n)
    (m m1 : Motion) (hm : Motion.new a w T o = .ok m) (hm1 : Motion.new a ((k : ℝ) / n * w) (((k : ℝ) / n) • T) o = .ok m1)
    (lo hi : ℝ) (det : Option Detector) (d d1 : PeaksDict) (p' p1' : Polycrystal)
    (hd : p.diffract x b m lo hi det = .ok (d, p')) (hd1 : p.diffract x b m1 lo hi det = .ok (d1, p1'))
    (D : Detector) (hs : 0 < D.sigma) (hr : 0 ≤ D.maxRadius) (env : RenderEnv) (ha : IsArgsort env.argsortDesc) (mesh : TetraMesh)
    (ml : Option ℝ) (mi : ℝ)
    (hz : ∀ r ∈ (D.peaksIntersection d n).peaks, val (D.peaksIntersection d n).columns r "volumes" < mi →
      firstZeroPixels D (D.peaksIntersection d n).columns r ≤ 2)
    (t t1 : Stack) (r r1 : PeaksDict) (ht : D.render env d mesh n .auto ml mi = .ok (some t, r))
    (ht1 : D.render env d1 mesh k .auto ml mi = .ok (some t1, r1)) :
    ∀ f < k, ∀ i j, t f i j = t1 f i j := by
  obtain ⟨h1, h2, h3, h4, h5, h6, h7, h8⟩ := first_setup hk hkn hm hm1 hd hd1
  obtain ⟨_, _, _, _, hcore⟩ := Polycrystal.diffract_ok hd
  obtain ⟨_, _, _, _, hcore1⟩ := Polycrystal.diffract_ok hd1
  have F : FirstDicts ((k : ℝ) / n) a T o w d d1 :=
    ⟨h1, h2, h3, h4, h5, h7.trans h6.symm, h8, diffract_columns hcore, diffract_columns hcore1⟩
  have hcols : (D.peaksIntersection d n).columns = hitColumns := by show d.columns ++ _ = _; rw [F.cols]; rfl
  rw [hcols] at hz
  simp only [← firstZero_eq, rcol_eq _ "volumes" (j := 21) rfl] at hz
  obtain ⟨ma, mm, na, o1, o2, o3, g1, g2, g3, g4, -⟩ := (auto_split D env d F.cols (fun q hq => (h2 q hq).1) mesh n ml mi _ _).1 ht
  obtain ⟨ma', mm', na', o1', o2', o3', g1', g2', g3', g4', -⟩ := (auto_split D env d1 F.cols1 h3 mesh k ml mi _ _).1 ht1
  cases ma with
  | none => cases g4
  | some ma =>
    cases ma' with
    | none => cases g4'
    | some ma' =>
      have e := Option.some.inj g4
      have e' := Option.some.inj g4'
      subst e e'
      obtain ⟨u, u1, _, _, w1, w2, w3⟩ := (F.withVolume fun v => v < mi).nano hk hkn D hs hr env ha mesh ml mi (by
        intro q hq
        rw [hits_withVolume D F.cols n fun q hq => (h2 q hq).1] at hq
        obtain ⟨hq1, hq2⟩ := List.mem_filter.mp hq
        exact hz q hq1 (by simpa using hq2))
      rw [g3] at w1
      rw [g3'] at w2
      obtain ⟨rfl, -⟩ := (Prod.mk.inj (Except.ok.inj w1)).imp Option.some.inj id
      obtain ⟨rfl, -⟩ := (Prod.mk.inj (Except.ok.inj w2)).imp Option.some.inj id
      intro f hf i j
      show ma f i j + mm f i j + na f i j = ma' f i j + mm' f i j + na' f i j
      rw [(F.withVolume fun v => macroLimit D ml ≤ v).macro hk hkn D env mesh ml mi g1 g1' f hf i j,
        (F.withVolume fun v => mi ≤ v ∧ v < macroLimit D ml).micro hk hkn D env mesh ml mi g2 g2' f hf i j, w3 f hf i j]


/-- the hypotheses on the rings and on the images are met, whatever the scan, for limits that enclose all its volumes -/
theorem auto_between (d : PeaksDict) (hc : d.columns = peakColumns) (hlen : ∀ r ∈ d.peaks, r.length = 25) (D : Detector) (env : RenderEnv) (mesh : TetraMesh) :
    ∃ ml mi, ∀ n : ℕ, (∀ r ∈ (D.peaksIntersection d n).peaks, ¬ val (D.peaksIntersection d n).columns r "volumes" < mi) ∧
      ∃ t r, D.render env d mesh n .auto (some ml) mi = .ok (some t, r) := by
  obtain ⟨M, hM⟩ : ∃ M : ℝ, ∀ r ∈ d.peaks, |rcol r 21| < M := by
    generalize d.peaks = L
    induction L with
    | nil => exact ⟨0, by simp⟩
    | cons r L ih =>
      obtain ⟨M, hM⟩ := ih
      refine ⟨max M (|rcol r 21| + 1), ?_⟩
      intro q hq
      rcases List.mem_cons.mp hq with rfl | hq
      · exact lt_of_lt_of_le (lt_add_one _) (le_max_right _ _)
      · exact lt_of_lt_of_le (hM q hq) (le_max_left _ _)
  refine ⟨M, -M, fun n => ⟨?_, ?_⟩⟩
  · intro r hr
    have hcols : (D.peaksIntersection d n).columns = hitColumns := by show d.columns ++ _ = _; rw [hc]; rfl
    rw [hcols, rcol_eq r "volumes" (j := 21) rfl]
    rw [peaksIntersection_rows D d n hlen] at hr
    obtain ⟨q, hq, rfl⟩ := List.mem_map.mp hr
    have hqd := (List.mem_filter.mp hq).1
    rw [rcol21_row30 D n (hlen q hqd)]
    have := (abs_lt.mp (hM q hqd)).1
    linarith
  · have e1 : (withVolume d fun v => macroLimit D (some M) ≤ v).peaks = [] := by
      unfold Spec.withVolume
      simp only [List.filter_eq_nil_iff, decide_eq_true_eq]
      intro q hq hv
      rw [val21 hc] at hv
      have h1 := (abs_lt.mp (hM q hq)).2
      have h2 : macroLimit D (some M) = M := rfl
      linarith
    have e3 : (withVolume d fun v => v < -M).peaks = [] := by
      unfold Spec.withVolume
      simp only [List.filter_eq_nil_iff, decide_eq_true_eq]
      intro q hq hv
      rw [val21 hc] at hv
      have h1 := (abs_lt.mp (hM q hq)).1
      linarith
    obtain ⟨ta, oa, ha, -⟩ := C93_no_peaks_no_light D env _ e1 mesh n .macro (by simp) (some M) (-M)
    obtain ⟨tc, oc, hc', -⟩ := C93_no_peaks_no_light D env _ e3 mesh n .nano (by simp) (some M) (-M)
    have hb := render_micro_ok (D := D) (env := env) (mesh := mesh) (frames := n) (ml := some M) (mi := -M)
      (d := withVolume d fun v => -M ≤ v ∧ v < macroLimit D (some M)) fun r hr => hlen r (List.mem_filter.mp hr).1
    exact ⟨_, _, (auto_split D env d hc hlen mesh n (some M) (-M) _ _).2 ⟨_, _, _, _, _, _, ha, hb, hc', rfl, rfl⟩⟩

end XRD
