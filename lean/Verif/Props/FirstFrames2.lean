import Verif.Props.FirstFrames
import Verif.Props.NanoFails

/-! Property C118 for nano rendering. -/

namespace XRD
open V3 M3 Fl Spec
open scoped Classical

theorem smallAdd_congr {D : Detector} {j1 : ℝ → ℝ} {r r' : List Fl} (h : ∀ j : ℕ, j ≠ 6 → j ≠ 24 → j ≠ 28 → rcol r j = rcol r' j) (i j : ℕ) :
    smallAdd D j1 r i j = smallAdd D j1 r' i j := by
  unfold smallAdd Detector.firstZero
  rw [h 21 (by norm_num) (by norm_num) (by norm_num), h 23 (by norm_num) (by norm_num) (by norm_num), h 25 (by norm_num) (by norm_num) (by norm_num),
    h 26 (by norm_num) (by norm_num) (by norm_num), h 27 (by norm_num) (by norm_num) (by norm_num), h 29 (by norm_num) (by norm_num) (by norm_num)]

/-- a nano image of small rings is the convolution of the sum of the kernels of the hits of the frame -/
theorem nano_sum (D : Detector) (j1 : ℝ → ℝ) (d : PeaksDict) (hlen : ∀ r ∈ d.peaks, r.length = 25) {n : ℕ} (hn : 1 ≤ n) (f i j : ℕ) :
    (((D.peaksIntersection d n).peaks.filter fun r => rcol r 28 = (f : ℝ)).map fun r => smallAdd D j1 r i j).sum =
      (((hitsOf D d.peaks).filter fun q => Detector.rowFrame n q = fin (f : ℝ)).map fun q => smallAdd D j1 (row30 D 1 q) i j).sum := by
  set L := hitsOf D d.peaks with hL
  have hL25 : ∀ q ∈ L, q.length = 25 := fun q hq => hlen q (List.mem_filter.mp hq).1
  rw [peaksIntersection_rows D d n hlen]
  change (((L.map (row30 D n)).filter fun r => rcol r 28 = (f : ℝ)).map fun r => smallAdd D j1 r i j).sum = _
  rw [List.filter_map, List.map_map]
  have e : L.filter ((fun r => decide (rcol r 28 = (f : ℝ))) ∘ row30 D n) = L.filter fun q => decide (Detector.rowFrame n q = fin (f : ℝ)) := by
    apply List.filter_congr
    intro q hq
    show decide _ = decide _
    exact decide_eq_decide.2 (rcol28_row30 D n (hL25 q hq) (by exact_mod_cast hn) f)
  rw [e]
  congr 1
  apply List.map_congr_left
  intro q hq
  have h25 := hL25 q (List.mem_filter.mp hq).1
  show smallAdd D j1 (row30 D n q) i j = _
  apply smallAdd_congr
  intro j _ _ h28
  exact rcol_congr ((row30_cols D n h25).1 j h28)

theorem Forall₂.right_mem {α β : Type} {R : α → β → Prop} {A : List α} {B : List β} (h : List.Forall₂ R A B) : ∀ y ∈ B, ∃ x ∈ A, R x y := by
  induction h with
  | nil => simp
  | cons h _ ih =>
    intro y hy
    rcases List.mem_cons.mp hy with rfl | hy
    · exact ⟨_, List.mem_cons_self, h⟩
    · obtain ⟨x, hx, hr⟩ := ih y hy
      exact ⟨x, List.mem_cons_of_mem _ hx, hr⟩

/-- C118, nano: if the first dark rings of all hits of the scan are within two pixels, both renderings succeed and the first `k`
frames of the one are the frames of the other.  (The kernels of larger rings depend on the other peaks of their batch: C30, C67.) -/
theorem C118_first_frames_nano_small_rings (x : Xfab) (p : Polycrystal) (b : Beam) (a T o : V3) (w : ℝ) (k n : ℕ) (hk : 1 ≤ k) (hkn : k ≤ n)
    (m m1 : Motion) (hm : Motion.new a w T o = .ok m) (hm1 : Motion.new a ((k : ℝ) / n * w) (((k : ℝ) / n) • T) o = .ok m1)
    (lo hi : ℝ) (det : Option Detector) (d d1 : PeaksDict) (p' p1' : Polycrystal)
    (hd : p.diffract x b m lo hi det = .ok (d, p')) (hd1 : p.diffract x b m1 lo hi det = .ok (d1, p1'))
    (D : Detector) (hs : 0 < D.sigma) (hr : 0 ≤ D.maxRadius) (env : RenderEnv) (ha : IsArgsort env.argsortDesc) (mesh : TetraMesh)
    (ml : Option ℝ) (mi : ℝ)
    (hz : ∀ r ∈ (D.peaksIntersection d n).peaks, firstZeroPixels D (D.peaksIntersection d n).columns r ≤ 2) :
    ∃ t t1 o o1, D.render env d mesh n .nano ml mi = .ok (some t, o) ∧ D.render env d1 mesh k .nano ml mi = .ok (some t1, o1) ∧
      ∀ f < k, ∀ i j, t f i j = t1 f i j := by
  obtain ⟨h1, h2, h3, -⟩ := first_setup hk hkn hm hm1 hd hd1
  have hn : 1 ≤ n := by omega
  have e1 : max (n : ℤ) 1 = n := by omega
  have e2 : max (k : ℤ) 1 = k := by omega
  have hcols : (D.peaksIntersection d n).columns = hitColumns := by
    obtain ⟨_, _, _, _, hcore⟩ := Polycrystal.diffract_ok hd
    show d.columns ++ _ = _; rw [diffract_columns hcore]; rfl
  rw [hcols] at hz
  simp only [← firstZero_eq] at hz
  have hz1 : ∀ r ∈ (D.peaksIntersection d1 k).peaks, D.firstZero r ≤ 2 := by
    intro r hr'
    rw [peaksIntersection_rows D d1 k h3] at hr'
    obtain ⟨q1, hq1, rfl⟩ := List.mem_map.mp hr'
    obtain ⟨hq1m, hq1p⟩ := List.mem_filter.mp hq1
    obtain ⟨q, hq, hc⟩ := Forall₂.right_mem h1 q1 hq1m
    have hqd := (List.mem_filter.mp hq).1
    have hin : row30 D n q ∈ (D.peaksIntersection d n).peaks := by
      rw [peaksIntersection_rows D d n fun q hq => (h2 q hq).1]
      refine List.mem_map.mpr ⟨q, List.mem_filter.mpr ⟨hqd, ?_⟩, rfl⟩
      rw [← hc.intersect D, ← hc.intensity D]
      exact hq1p
    have := hz _ hin
    have c : ∀ j : ℕ, j ≠ 6 → j ≠ 24 → j ≠ 28 → rcol (row30 D k q1) j = rcol (row30 D n q) j := by
      intro j a6 a24 a28
      rw [rcol_congr ((row30_cols D k (h3 q1 hq1m)).1 j a28), rcol_congr ((row30_cols D n (h2 q hqd).1).1 j a28)]
      exact hc.hit D a6 a24
    unfold Detector.firstZero at this ⊢
    rwa [c 23 (by norm_num) (by norm_num) (by norm_num), c 27 (by norm_num) (by norm_num) (by norm_num)]
  refine ⟨_, _, _, _, by rw [render_nano, e1, Int.toNat_natCast, renderNano_small hs hr ha hz]; rfl,
    by rw [render_nano, e2, Int.toNat_natCast, renderNano_small hs hr ha hz1]; rfl, ?_⟩
  intro f hf i j
  beta_reduce
  rw [if_pos (by omega), if_pos hf]
  congr 1
  funext i j
  rw [nano_sum D env.j1 d (fun q hq => (h2 q hq).1) hn, nano_sum D env.j1 d1 h3 hk]
  exact first_sum h1 h2 rfl hk hkn hf D fun q q1 h => smallAdd_congr (fun j a6 a24 _ => h.hit D a6 a24) i j

/-- the hypothesis on the rings is met: whatever the scan and the detector, once the pixels are tall enough (the hits stay the same) -/
theorem coarse_pixels (D : Detector) (d : PeaksDict) (n : ℤ) : ∃ P : ℝ, 0 < P ∧ ∀ pz ≥ P,
    ({ D with pz := pz } : Detector).peaksIntersection d n = D.peaksIntersection d n ∧
    ∀ r ∈ (({ D with pz := pz } : Detector).peaksIntersection d n).peaks,
      firstZeroPixels { D with pz := pz } (({ D with pz := pz } : Detector).peaksIntersection d n).columns r ≤ 2 := by
  have key : ∀ l : List (List Fl), ∃ P : ℝ, 0 < P ∧ ∀ pz ≥ P, ∀ r ∈ l,
      firstZeroPixels { D with pz := pz } (d.columns ++ ["zd", "yd", "incident_angle", "frame", "intensity_factors"]) r ≤ 2 := by
    intro l
    induction l with
    | nil => exact ⟨1, one_pos, by simp⟩
    | cons r l ih =>
      obtain ⟨P, hP, h⟩ := ih
      set c := val (d.columns ++ ["zd", "yd", "incident_angle", "frame", "intensity_factors"]) r "scherrer_fwhm" * (D.c0.norm / Real.cos (val (d.columns ++ ["zd", "yd", "incident_angle", "frame", "intensity_factors"]) r "incident_angle" * Real.pi / 180)) with hc
      refine ⟨max P (|c|), lt_of_lt_of_le hP (le_max_left _ _), ?_⟩
      intro pz hpz q hq
      rcases List.mem_cons.mp hq with rfl | hq
      · have h0 : 0 < pz := lt_of_lt_of_le hP ((le_max_left _ _).trans hpz)
        have h1 : c ≤ pz := (le_abs_self c).trans ((le_max_right _ _).trans hpz)
        show c / pz * (11861 / 10000) ≤ 2
        have : c / pz ≤ 1 := (div_le_one h0).2 h1
        linarith
      · exact h pz ((le_max_left _ _).trans hpz) q hq
  obtain ⟨P, hP, h⟩ := key (D.peaksIntersection d n).peaks
  exact ⟨P, hP, fun pz hpz => ⟨rfl, fun r hr => h pz hpz r hr⟩⟩

end XRD
