import Verif.Props.Shift
import Verif.Props.MacroBlock

/-! Property C105: making the detector larger. -/

namespace XRD.Spec
open XRD V3
/-- two detectors built with the same corner, axes, `pixel_size` and settings; the sides of the second one are `α` (rows) and `β`
(columns) times as long -/
def ResizedDetector (D D' : Detector) (α β : ℝ) : Prop :=
  0 < α ∧ 0 < β ∧ ∃ (c0 c1 c2 : V3) (ps : PixArg ℝ) (sg th : ℝ) (mr : ℤ) (fl fp fs : Bool),
    Detector.new c0 c1 c2 .absent ps sg th mr fl fp fs = .ok D ∧
    Detector.new c0 (c0 + β • (c1 - c0)) (c0 + α • (c2 - c0)) .absent ps sg th mr fl fp fs = .ok D'
/-- pixel `(i, j)` is farther than the reach of one peak from the two edges opposite to the first corner -/
def FromFarEdges (D : Detector) (i j : ℕ) : Prop :=
  i + (max 3 (3 * Real.sqrt ((7 / 10) ^ 2 + D.sigma ^ 2) + 1) + 1 / 2) < norm (D.c2 - D.c0) / D.pz ∧
  j + (max 3 (3 * Real.sqrt ((7 / 10) ^ 2 + D.sigma ^ 2) + 1) + 1 / 2) < norm (D.c1 - D.c0) / D.py
end XRD.Spec

namespace XRD
open V3 M3 Fl Spec
open scoped Classical

/-- the detector with longer sides -/
noncomputable def Detector.resized (D : Detector) (α β : ℝ) : Detector :=
  { D with c1 := D.c0 + β • (D.c1 - D.c0), c2 := D.c0 + α • (D.c2 - D.c0), zmax := α * D.zmax, ymax := β * D.ymax }

/-- building a detector commutes with making its sides longer -/
theorem new_resized {c0 c1 c2 : V3} {ps : PixArg ℝ} {sg th : ℝ} {mr : ℤ} {fl fp fs : Bool} {D : Detector} {α β : ℝ} (hα : 0 < α) (hβ : 0 < β)
    (h1 : Detector.new c0 c1 c2 .absent ps sg th mr fl fp fs = .ok D) :
    Detector.new c0 (c0 + β • (c1 - c0)) (c0 + α • (c2 - c0)) .absent ps sg th mr fl fp fs = .ok (D.resized α β) := by
  have d1 : c0 + α • (c2 - c0) - c0 = α • (c2 - c0) := by abel
  have d2 : c0 + β • (c1 - c0) - c0 = β • (c1 - c0) := by abel
  have n1 : norm (α • (c2 - c0)) = α * norm (c2 - c0) := by rw [V3.norm_smul, abs_of_pos hα]
  have n2 : norm (β • (c1 - c0)) = β * norm (c1 - c0) := by rw [V3.norm_smul, abs_of_pos hβ]
  have u1 : (1 / (α * norm (c2 - c0))) • (α • (c2 - c0)) = (1 / norm (c2 - c0)) • (c2 - c0) := by
    ext <;> simp <;> field_simp
  have u2 : (1 / (β * norm (c1 - c0))) • (β • (c1 - c0)) = (1 / norm (c1 - c0)) • (c1 - c0) := by
    ext <;> simp <;> field_simp
  have hps : ∀ a b a' b' : ℝ, pixelSizes a b .absent ps = pixelSizes a' b' .absent ps := by
    intro a b a' b'; cases ps <;> rfl
  unfold Detector.new at h1 ⊢
  rw [d1, d2]
  dsimp only at h1 ⊢
  rw [n1, n2, u1, u2, hps _ _ (norm (c2 - c0)) (norm (c1 - c0))]
  cases hp : pixelSizes (c2 - c0).norm (c1 - c0).norm .absent ps with
  | error e => rw [hp] at h1; cases h1
  | ok p =>
    rw [hp] at h1
    obtain ⟨pz, py⟩ := p
    dsimp only at h1 ⊢
    split_ifs at h1 ⊢ with q1 q2
    obtain rfl := Except.ok.inj h1
    rfl

theorem resized_eq {D D' : Detector} {α β : ℝ} (h : ResizedDetector D D' α β) : D.Ok ∧ D'.Ok ∧ D' = D.resized α β := by
  obtain ⟨hα, hβ, c0, c1, c2, ps, sg, th, mr, fl, fp, fs, h1, h2⟩ := h
  refine ⟨(Detector.new_ok h1).1, (Detector.new_ok h2).1, ?_⟩
  rw [new_resized hα hβ h1] at h2
  exact (Except.ok.inj h2).symm

theorem far_facts {D : Detector} (hok : D.Ok) {i j : ℕ} (h : FromFarEdges D i j) :
    i < D.nz ∧ j < D.ny ∧ ∀ z y : ℝ, |(i : ℝ) - z / D.pz| ≤ D.microRadius + 1 / 2 → |(j : ℝ) - y / D.py| ≤ D.microRadius + 1 / 2 →
      z ≤ D.zmax ∧ y ≤ D.ymax := by
  obtain ⟨h2, h4⟩ := h
  rw [← hok.zmax_eq] at h2
  rw [← hok.ymax_eq] at h4
  have hm := microRadius_le D
  have h3' : (3 : ℝ) ≤ max 3 (3 * Real.sqrt ((7 / 10) ^ 2 + D.sigma ^ 2) + 1) := le_max_left _ _
  generalize max 3 (3 * Real.sqrt ((7 / 10) ^ 2 + D.sigma ^ 2) + 1) = M at *
  refine ⟨?_, ?_, ?_⟩
  · unfold Detector.nz
    exact Nat.lt_ceil.2 (by linarith)
  · unfold Detector.ny
    exact Nat.lt_ceil.2 (by linarith)
  · intro z y hz hy
    rw [abs_le] at hz hy
    have a2 : z / D.pz ≤ D.zmax / D.pz := by linarith
    have a4 : y / D.py ≤ D.ymax / D.py := by linarith
    rw [div_le_div_iff_of_pos_right hok.pz] at a2
    rw [div_le_div_iff_of_pos_right hok.py] at a4
    exact ⟨a2, a4⟩

/-- one row: its part of the pixel is the same on both detectors -/
theorem micro_resized_row {D : Detector} {α β : ℝ} (hok : D.Ok) (hok' : (D.resized α β).Ok) {n : ℤ} (hn : 1 ≤ n)
    {q : List Fl} (hl : q.length = 25) {f i j : ℕ} (hI : FromFarEdges D i j) (hI' : FromFarEdges (D.resized α β) i j) :
    (if Kept (D.resized α β) q then
      stackOf n.toNat (D.resized α β).nz (D.resized α β).ny ((D.resized α β).microDeposits (row30 (D.resized α β) n q)) f i j else 0) =
    (if Kept D q then stackOf n.toNat D.nz D.ny (D.microDeposits (row30 D n q)) f i j else 0) := by
  set D' := D.resized α β with hD'
  obtain ⟨g1, g2, g3⟩ := far_facts hok hI
  obtain ⟨g1', g2', g3'⟩ := far_facts hok' hI'
  have eint : D'.rowIntensity q = D.rowIntensity q := rfl
  have einter : D'.rowIntersect q = D.rowIntersect q := rfl
  have e30 : row30 D' n q = row30 D n q := rfl
  by_cases hInt : IsFinite (D.rowIntensity q) ∧ Fl.Lt (fin 0) (D.rowIntensity q)
  swap
  · rw [if_neg (fun h => hInt h.2), if_neg (fun h => hInt (eint ▸ h.2))]
  obtain ⟨I, hIq, -⟩ := Fl.lt_zero_fin.mp hInt
  by_cases hfin : ∃ zd yd w, D.rowIntersect q = [fin zd, fin yd, w]
  swap
  · have no : ∀ E : Detector, E.rowIntersect q = D.rowIntersect q → ¬ Kept E q := by
      intro E hE hk
      obtain ⟨hc, -⟩ := hk
      rw [hE] at hc
      obtain ⟨f1, f2⟩ := contains_finite hc
      have hlen : (D.rowIntersect q).length = 3 := rowIntersect_length D q
      match hr : D.rowIntersect q, hlen with
      | [x, y, w], _ =>
        rw [hr] at f1 f2
        simp at f1 f2
        cases x <;> cases y <;> simp_all
    rw [if_neg (no D rfl), if_neg (no D' einter)]
  obtain ⟨zd, yd, w, e1⟩ := hfin
  obtain ⟨c25, c26, c29, c21, k, ck, k0, k1, kf⟩ := row30_fields hn hl e1 hIq
  by_cases hnear : |(i : ℝ) - zd / D.pz| ≤ D.microRadius + 1 / 2 ∧ |(j : ℝ) - yd / D.py| ≤ D.microRadius + 1 / 2
  · have key : Kept D' q ↔ Kept D q := by
      unfold Kept
      rw [eint, einter, e1]
      refine and_congr_left fun _ => ?_
      show D'.contains (fin zd) (fin yd) ↔ D.contains (fin zd) (fin yd)
      rw [contains_fin, contains_fin]
      obtain ⟨a1, a2⟩ := g3 _ _ hnear.1 hnear.2
      obtain ⟨b1, b2⟩ := g3' _ _ hnear.1 hnear.2
      constructor
      · rintro ⟨x, -, y, -⟩; exact ⟨x, a1, y, a2⟩
      · rintro ⟨x, -, y, -⟩; exact ⟨x, b1, y, b2⟩
    by_cases hk : Kept D q
    · rw [if_pos hk, if_pos (key.2 hk), e30, stackOf_microDeposits (D := D) ck k0 (by omega) g1 g2]
      exact stackOf_microDeposits (D := D') (f := f) (n := n.toNat) ck k0 (by omega) g1' g2'
    · rw [if_neg hk, if_neg (fun h => hk (key.1 h))]
  · have z1 := micro_far (D := D) (n := n.toNat) (f := f) (i := i) (j := j) ck k0 (by omega) (by rw [c25, c26]; exact hnear)
    have z2 := micro_far (D := D') (row := row30 D n q) (n := n.toNat) (f := f) (i := i) (j := j) ck k0 (by omega) (by rw [c25, c26]; exact hnear)
    rw [e30, z1, z2]; simp

/-- C105: making the detector larger (or smaller) from the same corner, with the same pixel size, does not change the micro image at
any pixel farther than the reach of one peak from the moved edges. -/
theorem C105_micro_resized (D D' : Detector) (α β : ℝ) (hS : ResizedDetector D D' α β) (env env' : RenderEnv) (d : PeaksDict)
    (mesh mesh' : TetraMesh) (frames : ℤ) (ml ml' : Option ℝ) (mi mi' : ℝ) (hlen : ∀ r ∈ d.peaks, r.length = 25) :
    ∃ t t' out out', D.render env d mesh frames .micro ml mi = .ok (some t, out) ∧
      D'.render env' d mesh' frames .micro ml' mi' = .ok (some t', out') ∧
      ∀ f i j : ℕ, FromFarEdges D i j → FromFarEdges D' i j → t' f i j = t f i j := by
  obtain ⟨hok, hok', rfl⟩ := resized_eq hS
  refine ⟨_, _, _, _, render_micro_ok hlen, render_micro_ok hlen, ?_⟩
  intro f i j hI hI'
  have hn : 1 ≤ max frames 1 := le_max_right _ _
  rw [micro_pixel hlen, micro_pixel hlen]
  exact congrArg List.sum (List.map_congr_left fun q hq => micro_resized_row hok hok' hn (hlen q hq) hI hI')

/-- C105, the table of hits: the hits of the two detectors that lie on both are the same, in the same order, with the same
coordinates, frames and intensities. -/
theorem C105_hits_resized (D D' : Detector) (α β : ℝ) (hS : ResizedDetector D D' α β) (d : PeaksDict) (n : ℤ) (hcol : d.columns = peakColumns)
    (hlen : ∀ r ∈ d.peaks, r.length = 25) :
    (D'.peaksIntersection d n).columns = (D.peaksIntersection d n).columns ∧
    (D'.peaksIntersection d n).peaks.filter (fun r => val hitColumns r "zd" ≤ norm (D.c2 - D.c0) ∧ val hitColumns r "yd" ≤ norm (D.c1 - D.c0)) =
    (D.peaksIntersection d n).peaks.filter (fun r => val hitColumns r "zd" ≤ norm (D'.c2 - D'.c0) ∧ val hitColumns r "yd" ≤ norm (D'.c1 - D'.c0)) := by
  obtain ⟨hok, hok', rfl⟩ := resized_eq hS
  refine ⟨rfl, ?_⟩
  rw [← hok.zmax_eq, ← hok.ymax_eq, ← hok'.zmax_eq, ← hok'.ymax_eq, peaksIntersection_rows _ d n hlen, peaksIntersection_rows _ d n hlen]
  rw [List.filter_map, List.filter_map, List.filter_filter, List.filter_filter]
  show List.map (row30 D n) _ = List.map (row30 D n) _
  congr 1
  refine List.filter_congr fun q hq => ?_
  rw [Bool.eq_iff_iff]
  simp only [Function.comp_apply, Bool.and_eq_true, decide_eq_true_eq]
  have einter : (D.resized α β).rowIntersect q = D.rowIntersect q := rfl
  have eint : (D.resized α β).rowIntensity q = D.rowIntensity q := rfl
  have e30 : row30 (D.resized α β) n q = row30 D n q := rfl
  rw [einter, eint, e30, rcol_eq _ "zd" (j := 25) rfl, rcol_eq _ "yd" (j := 26) rfl]
  by_cases hfin : ∃ zd yd w, D.rowIntersect q = [fin zd, fin yd, w]
  · obtain ⟨zd, yd, w, e1⟩ := hfin
    have c25 : rcol (row30 D n q) 25 = zd := by
      unfold rcol row30; rw [e1, List.append_assoc, List.append_assoc, List.getElem?_append_right (by rw [hlen q hq]), hlen q hq]; rfl
    have c26 : rcol (row30 D n q) 26 = yd := by
      unfold rcol row30; rw [e1, List.append_assoc, List.append_assoc, List.getElem?_append_right (by rw [hlen q hq]; norm_num), hlen q hq]; rfl
    rw [c25, c26, e1]
    show _ ∧ (D.resized α β).contains (fin zd) (fin yd) ∧ _ ↔ _ ∧ D.contains (fin zd) (fin yd) ∧ _
    rw [contains_fin, contains_fin]
    tauto
  · have hlen3 : (D.rowIntersect q).length = 3 := rowIntersect_length D q
    have no : ∀ E : Detector, ¬ E.contains ((D.rowIntersect q).getD 0 nan) ((D.rowIntersect q).getD 1 nan) := by
      intro E hc
      obtain ⟨f1, f2⟩ := contains_finite hc
      match hr : D.rowIntersect q, hlen3 with
      | [x, y, w], _ =>
        rw [hr] at f1 f2
        simp at f1 f2
        cases x <;> cases y <;> simp_all
    constructor
    · rintro ⟨-, h, -⟩; exact absurd h (no _)
    · rintro ⟨-, h, -⟩; exact absurd h (no _)

/-- the bounding box of a projection inside both detectors -/
theorem box_resized {D : Detector} {α β : ℝ} (hok : D.Ok) (hα : 1 ≤ α) (hβ : 1 ≤ β) {points : List V3} {k : V3} (h : OnPixels D points k) :
    OnPixels (D.resized α β) points k ∧ (D.resized α β).boundingBox points k = D.boundingBox points k := by
  have h' : OnPixels (D.resized α β) points k := by
    refine ⟨h.1, fun v hv => ?_⟩
    obtain ⟨zd, yd, e1, e2, i1, i2, i3, i4⟩ := h.2 v hv
    refine ⟨zd, yd, e1, e2, i1, i2.trans_le ?_, i3, i4.trans_le ?_⟩
    · have : ⌊D.zmax / D.pz⌋ ≤ ⌊(D.resized α β).zmax / D.pz⌋ := by
        apply Int.floor_mono
        show D.zmax / D.pz ≤ α * D.zmax / D.pz
        have := hok.zpos; have := hok.pz
        gcongr; nlinarith
      exact_mod_cast this
    · have : ⌊D.ymax / D.py⌋ ≤ ⌊(D.resized α β).ymax / D.py⌋ := by
        apply Int.floor_mono
        show D.ymax / D.py ≤ β * D.ymax / D.py
        have := hok.ypos; have := hok.py
        gcongr; nlinarith
      exact_mod_cast this
  refine ⟨h', ?_⟩
  obtain ⟨a, n, c, m, z0, z1, y0, y1, hb, hn, hm, -, -, za, zn, yc, ym, ⟨v1, m1, e1⟩, ⟨v2, m2, e2⟩, ⟨v3, m3, e3⟩, ⟨v4, m4, e4⟩, hd, hin⟩ :=
    onPixels_box hok.pz hok.py h
  obtain ⟨a', n', c', m', z0', z1', y0', y1', hb', hn', hm', -, -, za', zn', yc', ym', ⟨w1, l1, f1⟩, ⟨w2, l2, f2⟩, ⟨w3, l3, f3⟩, ⟨w4, l4, f4⟩, hd', hin'⟩ :=
    onPixels_box (D := D.resized α β) hok.pz hok.py h'
  have up : ∀ v ∈ points, ∀ zd yd, (D.intersect k v).1 = fin zd → (D.intersect k v).2.1 = fin yd →
      (z0 ≤ zd ∧ zd ≤ z1 ∧ y0 ≤ yd ∧ yd ≤ y1) ∧ (z0' ≤ zd ∧ zd ≤ z1' ∧ y0' ≤ yd ∧ yd ≤ y1') := by
    intro v hv zd yd p1 p2
    obtain ⟨-, zd1, yd1, q1, q2, b⟩ := hin v (subset_convexHull ℝ _ hv)
    obtain ⟨-, zd2, yd2, r1, r2, b'⟩ := hin' v (subset_convexHull ℝ _ hv)
    rw [p1] at q1; rw [p2] at q2
    have r1 : (D.intersect k v).1 = fin zd2 := r1
    have r2 : (D.intersect k v).2.1 = fin yd2 := r2
    rw [p1] at r1; rw [p2] at r2
    cases q1; cases q2; cases r1; cases r2
    exact ⟨b, b'⟩
  have fin2 : ∀ v ∈ points, ∃ zd yd, (D.intersect k v).1 = fin zd ∧ (D.intersect k v).2.1 = fin yd := by
    intro v hv
    obtain ⟨zd, yd, e1, e2, -⟩ := h.2 v hv
    exact ⟨zd, yd, e1, e2⟩
  have f1 : (D.intersect k w1).1 = fin z0' := f1
  have f2 : (D.intersect k w2).1 = fin z1' := f2
  have f3 : (D.intersect k w3).2.1 = fin y0' := f3
  have f4 : (D.intersect k w4).2.1 = fin y1' := f4
  have E1 : z0 = z0' := by
    obtain ⟨x1, y1, p1, p2⟩ := fin2 v1 m1
    obtain ⟨x2, y2, p3, p4⟩ := fin2 w1 l1
    rw [e1] at p1; cases p1; rw [f1] at p3; cases p3
    exact le_antisymm ((up w1 l1 _ _ f1 p4).1.1) ((up v1 m1 _ _ e1 p2).2.1)
  have E2 : z1 = z1' := by
    obtain ⟨x1, y1, p1, p2⟩ := fin2 v2 m2
    obtain ⟨x2, y2, p3, p4⟩ := fin2 w2 l2
    exact le_antisymm ((up v2 m2 _ _ e2 p2).2.2.1) ((up w2 l2 _ _ f2 p4).1.2.1)
  have E3 : y0 = y0' := by
    obtain ⟨x1, y1, p1, p2⟩ := fin2 v3 m3
    obtain ⟨x2, y2, p3, p4⟩ := fin2 w3 l3
    exact le_antisymm ((up w3 l3 _ _ p3 f3).1.2.2.1) ((up v3 m3 _ _ p1 e3).2.2.2.1)
  have E4 : y1 = y1' := by
    obtain ⟨x1, y1, p1, p2⟩ := fin2 v4 m4
    obtain ⟨x2, y2, p3, p4⟩ := fin2 w4 l4
    exact le_antisymm ((up v4 m4 _ _ p1 e4).2.2.2.2) ((up w4 l4 _ _ p3 f4).1.2.2.2)
  subst E1 E2 E3 E4
  have za' : (a' : ℤ) = ⌊z0 / D.pz⌋ := za'
  have zn' : ((a' + n' : ℕ) : ℤ) = ⌊z1 / D.pz⌋ + 1 := zn'
  have yc' : (c' : ℤ) = ⌊y0 / D.py⌋ := yc'
  have ym' : ((c' + m' : ℕ) : ℤ) = ⌊y1 / D.py⌋ + 1 := ym'
  rw [hb, hb', za', zn', yc', ym', ← za, ← zn, ← yc, ← ym]

/-- the point spread of a frame that vanishes outside a part of it -/
theorem conv2d_crop {h w h' w' : ℕ} (hh : h ≤ h') (hw : w ≤ w') (k : Kernel) (t : Frame) (ht : ∀ i j, t i j ≠ 0 → i < h ∧ j < w) {i j : ℕ}
    (hi : i < h) (hj : j < w) : conv2d h' w' k t i j = conv2d h w k t i j := by
  unfold conv2d
  rw [if_pos ⟨by omega, by omega⟩, if_pos ⟨hi, hj⟩]
  refine Finset.sum_congr rfl fun a _ => Finset.sum_congr rfl fun b _ => ?_
  by_cases hz : t (i + a - k.size / 2) (j + b - k.size / 2) = 0
  · rw [hz]; simp
  · obtain ⟨h1, h2⟩ := ht _ _ hz
    by_cases hc : k.size / 2 ≤ i + a ∧ k.size / 2 ≤ j + b
    · rw [if_pos ⟨hc.1, by omega, hc.2, by omega⟩, if_pos ⟨hc.1, by omega, hc.2, by omega⟩]
    · rw [if_neg (fun h => hc ⟨h.1, h.2.2.1⟩), if_neg (fun h => hc ⟨h.1, h.2.2.1⟩)]

/-- a hit lies on the detector -/
theorem hit_within {D : Detector} {d : PeaksDict} {n : ℤ} (hn : 1 ≤ n) (hlen : ∀ r ∈ d.peaks, r.length = 25) :
    ∀ r ∈ (D.peaksIntersection d n).peaks, val hitColumns r "zd" ≤ D.zmax ∧ val hitColumns r "yd" ≤ D.ymax := by
  intro r hr
  rw [peaksIntersection_rows _ d _ hlen] at hr
  obtain ⟨q, hq, rfl⟩ := List.mem_map.1 hr
  obtain ⟨hq, hc⟩ := List.mem_filter.1 hq
  have hc := (of_decide_eq_true hc)
  obtain ⟨hzy, hI⟩ := hc
  obtain ⟨I, hIq, -⟩ := Fl.lt_zero_fin.mp hI
  obtain ⟨f1, f2⟩ := contains_finite hzy
  rw [rcol_eq _ "zd" (j := 25) rfl, rcol_eq _ "yd" (j := 26) rfl]
  have hlen3 : (D.rowIntersect q).length = 3 := rowIntersect_length D q
  match hr : D.rowIntersect q, hlen3 with
  | [.fin x, .fin y, w], _ =>
    obtain ⟨c25, c26, -⟩ := row30_fields hn (hlen q hq) hr hIq
    rw [hr] at hzy
    obtain ⟨-, a, -, b⟩ := contains_fin.1 (show D.contains (fin x) (fin y) from hzy)
    rw [c25, c26]; exact ⟨a, b⟩
  | [.nan, y, w], _ => rw [hr] at f1; simp at f1
  | [.ninf, y, w], _ => rw [hr] at f1; simp at f1
  | [.pinf, y, w], _ => rw [hr] at f1; simp at f1
  | [.fin x, .nan, w], _ => rw [hr] at f2; simp at f2
  | [.fin x, .ninf, w], _ => rw [hr] at f2; simp at f2
  | [.fin x, .pinf, w], _ => rw [hr] at f2; simp at f2

/-- C105 for macro rendering (partial: only when every element that hits the larger detector projects completely inside the smaller
one; see `C105_macro_resized_fails`): the image on the smaller detector is the part of the image on the larger one. -/
theorem C105_macro_resized_partial (D D' : Detector) (α β : ℝ) (hS : ResizedDetector D D' α β) (hα : 1 ≤ α) (hβ : 1 ≤ β) (env : RenderEnv)
    (d : PeaksDict) (mesh : TetraMesh) (frames : ℤ) (ml ml' : Option ℝ) (mi mi' : ℝ) (hcol : d.columns = peakColumns)
    (hlen : ∀ r ∈ d.peaks, r.length = 25)
    (hin : ∀ r ∈ (D'.peaksIntersection d (max frames 1)).peaks,
      (val hitColumns r "zd" ≤ norm (D.c2 - D.c0) ∧ val hitColumns r "yd" ≤ norm (D.c1 - D.c0)) ∧
      ∃ vs k, IsMoved d mesh (D'.peaksIntersection d (max frames 1)).columns r vs ∧ k = kOut (D'.peaksIntersection d (max frames 1)).columns r ∧
        ∀ H, env.hull d.beam vs = some H → OnPixels D H.points k)
    (t' : Stack) (out' : PeaksDict) (ht' : D'.render env d mesh frames .macro ml' mi' = .ok (some t', out')) :
    ∃ t out, D.render env d mesh frames .macro ml mi = .ok (some t, out) ∧ out'.peaks = out.peaks ∧
      ∀ f i j : ℕ, (i : ℝ) < norm (D.c2 - D.c0) / D.pz → (j : ℝ) < norm (D.c1 - D.c0) / D.py → t' f i j = t f i j := by
  have hhits := (C105_hits_resized D D' α β hS d (max frames 1) hcol hlen).2
  obtain ⟨hok, hok', rfl⟩ := resized_eq hS
  have hn1 : 1 ≤ max frames 1 := le_max_right _ _
  rw [List.filter_eq_self.2 (fun r hr => by simpa using (hin r hr).1), List.filter_eq_self.2 (fun r hr => by
    obtain ⟨h1, h2⟩ := hit_within hn1 hlen r hr
    rw [← hok'.zmax_eq, ← hok'.ymax_eq]
    have a1 : D.zmax ≤ (D.resized α β).zmax := by show D.zmax ≤ α * D.zmax; nlinarith [hok.zpos]
    have a2 : D.ymax ≤ (D.resized α β).ymax := by show D.ymax ≤ β * D.ymax; nlinarith [hok.ypos]
    exact decide_eq_true ⟨h1.trans a1, h2.trans a2⟩)] at hhits
  set n := max frames 1 with hn
  have hc : ((D.resized α β).peaksIntersection d n).columns = hitColumns := by show d.columns ++ _ = _; rw [hcol]; rfl
  rw [hc] at hin
  rw [render_macro, ← hn] at ht' ⊢
  have hfr : ∀ r ∈ (D.peaksIntersection d n).peaks, ∃ k : ℕ, rcol r 28 = k ∧ k < n.toNat := by
    intro r hr
    obtain ⟨q, -, -, ⟨k, hk, h0, h1⟩, -⟩ := hitRows hn1 hlen r hr
    refine ⟨k.toNat, ?_, by omega⟩
    rw [hk]; exact_mod_cast (Int.toNat_of_nonneg h0).symm
  rw [hhits] at hin ht'
  -- one peak
  have hone : ∀ r ∈ (D.peaksIntersection d n).peaks, macroAdd (D.resized α β) env d.beam mesh d.motion r = macroAdd D env d.beam mesh d.motion r ∧
      ∀ i j, macroVal D env d.beam mesh d.motion r i j ≠ 0 → i < D.nz ∧ j < D.ny := by
    intro r hr
    obtain ⟨-, vs, k, hmv, hk, hH⟩ := hin r hr
    rw [kOut_eq] at hk
    subst hk
    cases hh : env.hull d.beam vs with
    | none =>
      have e : ∀ E : Detector, macroAdd E env d.beam mesh d.motion r = .ok (some fun _ _ => 0) := by
        intro E
        unfold macroAdd Detector.macroPeak
        rw [movedVertices_of hmv, hh]
      refine ⟨by rw [e, e], fun i j h => ?_⟩
      unfold macroVal at h
      rw [e] at h
      exact absurd rfl h
    | some H =>
      have hon := hH H hh
      obtain ⟨hon', hbox⟩ := box_resized hok hα hβ hon
      constructor
      · unfold macroAdd Detector.macroPeak
        rw [movedVertices_of hmv, hh]
        dsimp only
        rw [hbox]
        rfl
      · intro i j hne
        obtain ⟨a, m, c, q, z0, z1, y0, y1, hb, h1, h2, h3, h4, -⟩ := onPixels_box hok.pz hok.py hon
        unfold macroVal at hne
        cases hok : macroAdd D env d.beam mesh d.motion r with
        | error e => rw [hok] at hne; exact absurd rfl hne
        | ok x =>
          cases x with
          | none => rw [hok] at hne; exact absurd rfl hne
          | some g =>
            have := (macroVal_total (by rw [movedVertices_of hmv]; exact hh) hb h1 h2 h3 h4 hok).1 i j (by unfold macroVal; exact hne)
            omega
  rw [renderMacro_eq hfr] at ht' ⊢
  have c1 : (∃ r ∈ (D.peaksIntersection d n).peaks, macroAdd (D.resized α β) env d.beam mesh d.motion r = .error .indexError) ↔
      ∃ r ∈ (D.peaksIntersection d n).peaks, macroAdd D env d.beam mesh d.motion r = .error .indexError :=
    exists_congr fun r => and_congr_right fun hr => by rw [(hone r hr).1]
  have c2 : (∃ r ∈ (D.peaksIntersection d n).peaks, macroAdd (D.resized α β) env d.beam mesh d.motion r = .ok none) ↔
      ∃ r ∈ (D.peaksIntersection d n).peaks, macroAdd D env d.beam mesh d.motion r = .ok none :=
    exists_congr fun r => and_congr_right fun hr => by rw [(hone r hr).1]
  by_cases h1 : ∃ r ∈ (D.peaksIntersection d n).peaks, macroAdd D env d.beam mesh d.motion r = .error .indexError
  · rw [if_pos (c1.2 h1)] at ht'; cases ht'
  rw [if_neg (fun h => h1 (c1.1 h))] at ht'
  rw [if_neg h1]
  by_cases h2 : ∃ r ∈ (D.peaksIntersection d n).peaks, macroAdd D env d.beam mesh d.motion r = .ok none
  · rw [if_pos (c2.2 h2)] at ht'; cases ht'
  rw [if_neg (fun h => h2 (c2.1 h))] at ht'
  rw [if_neg h2]
  obtain ⟨e1, e2⟩ := Prod.mk.inj (Except.ok.inj ht')
  have e1 := Option.some.inj e1
  refine ⟨_, _, rfl, by rw [← e2]; exact hhits, ?_⟩
  intro f i j hi hj
  rw [← e1]
  beta_reduce
  rw [← hok.zmax_eq] at hi
  rw [← hok.ymax_eq] at hj
  have hi' : i < D.nz := Nat.lt_ceil.2 hi
  have hj' : j < D.ny := Nat.lt_ceil.2 hj
  by_cases hf : f < n.toNat
  swap
  · rw [if_neg hf, if_neg hf]
  rw [if_pos hf, if_pos hf]
  have eT : (fun i j => (((D.peaksIntersection d n).peaks.filter fun r => rcol r 28 = (f : ℝ)).map fun r =>
      macroVal (D.resized α β) env d.beam mesh d.motion r i j).sum) =
      fun i j => (((D.peaksIntersection d n).peaks.filter fun r => rcol r 28 = (f : ℝ)).map fun r => macroVal D env d.beam mesh d.motion r i j).sum := by
    funext i j
    refine congrArg List.sum (List.map_congr_left fun r hr => ?_)
    unfold macroVal
    rw [(hone r (List.mem_filter.1 hr).1).1]
  have ek : (D.resized α β).gaussKernel = D.gaussKernel := by
    have : ∀ k r, (D.resized α β).gaussRadiusLoop k r = D.gaussRadiusLoop k r := by
      intro k
      induction k with
      | zero => intro r; rfl
      | succ k ih => intro r; unfold Detector.gaussRadiusLoop; rw [ih]; rfl
    have hr : (D.resized α β).gaussRadius = D.gaussRadius := by unfold Detector.gaussRadius; rw [this]; rfl
    unfold Detector.gaussKernel
    rw [hr]; rfl
  rw [eT, ek]
  refine conv2d_crop ?_ ?_ _ _ ?_ hi' hj'
  · apply Nat.ceil_mono
    show D.zmax / D.pz ≤ α * D.zmax / D.pz
    have := hok.zpos; have := hok.pz
    gcongr; nlinarith
  · apply Nat.ceil_mono
    show D.ymax / D.py ≤ β * D.ymax / D.py
    have := hok.ypos; have := hok.py
    gcongr; nlinarith
  · intro i j hne
    by_contra hcon
    apply hne
    apply List.sum_eq_zero
    intro x hx
    obtain ⟨r, hr, rfl⟩ := List.mem_map.1 hx
    by_contra hx
    exact hcon ((hone r (List.mem_filter.1 hr).1).2 i j hx)

/-! ### an element whose centre misses the smaller detector -/

/-- an element with its centroid at `(0, 1, 0)` and one corner at `y = -8` -/
noncomputable def sail : Tet := ⟨⟨-1, -8, 0⟩, ⟨-1, 4, -4⟩, ⟨-1, 4, 4⟩, ⟨3, 4, 0⟩⟩
noncomputable def sailPts : List V3 := [sail.a, sail.b, sail.c, sail.d]
noncomputable def sailRow : List Fl := imgRow 0 1 0 0 64 0
noncomputable def sailHit : List Fl := imgHit 1 0 1 0 0 64 0

theorem sail_volume : tetVolume sail = 64 := by
  rw [tetVolume_eq]
  have : signedVolume sail = 64 := by
    simp [signedVolume, sail, V3.cross, V3.dot]; norm_num
  rw [this]; norm_num

theorem sail_mesh : TetraMesh.new sailPts [⟨0, 1, 2, 3⟩] = .ok (oneTet sail) := by
  apply oneTet_new
  simp [signedVolume, sail, V3.cross, V3.dot]; norm_num

theorem sail_hits : ((imgDet 1 1 (1/10)).peaksIntersection (imgDict [sailRow]) 1).peaks = [sailHit] := by
  unfold sailRow
  rw [imgDict_kept 1 1 (1/10) 1 0 1 0 0 _ 0 (by norm_num) (by norm_num) [] (by simp)]
  rfl

theorem sail_inside (v : V3) (h : v ∈ sailPts) : v.x ≤ 100 ∧ -8 ≤ v.y ∧ v.y ≤ 4 ∧ -4 ≤ v.z ∧ v.z ≤ 4 := by
  simp only [sailPts, sail, List.mem_cons, List.not_mem_nil, or_false] at h
  rcases h with rfl | rfl | rfl | rfl <;> norm_num

theorem sail_onPixels : OnPixels (imgDet 1 1 (1/10)) sailPts ⟨1, 0, 0⟩ := by
  refine ⟨by simp [sailPts], ?_⟩
  intro v hv
  obtain ⟨hx, y1, y2, z1, z2⟩ := sail_inside v hv
  rw [imgDet_intersect' _ _ _ hx]
  have e : ⌊((imgDet 1 1 (1/10)).zmax / (imgDet 1 1 (1/10)).pz)⌋ = 200 := by
    show ⌊(200:ℝ) / 1⌋ = 200; norm_num
  have e' : ⌊((imgDet 1 1 (1/10)).ymax / (imgDet 1 1 (1/10)).py)⌋ = 200 := by
    show ⌊(200:ℝ) / 1⌋ = 200; norm_num
  refine ⟨_, _, rfl, rfl, by linarith, ?_, by linarith, ?_⟩
  · rw [e]; show (v.z + 100) / 1 < _; push_cast; linarith
  · rw [e']; show (v.y + 100) / 1 < _; push_cast; linarith

theorem sail_comb (wa wb wc wd : ℝ) (h1 : 0 ≤ wa) (h2 : 0 ≤ wb) (h3 : 0 ≤ wc) (h4 : 0 ≤ wd) (h5 : wa + wb + wc + wd = 1) (p : V3)
    (hp : p = wa • sail.a + wb • sail.b + wc • sail.c + wd • sail.d) : p ∈ convexHull ℝ {v : V3 | v ∈ sailPts} := by
  rw [hp]
  have := (convex_convexHull ℝ {v : V3 | v ∈ sailPts}).sum_mem (t := Finset.univ)
    (w := ![wa, wb, wc, wd]) (z := ![sail.a, sail.b, sail.c, sail.d])
    (by intro i _; fin_cases i <;> simpa) (by simp [Fin.sum_univ_four, h5])
    (by intro i _; fin_cases i <;> exact subset_convexHull ℝ _ (by simp [sailPts]))
  rw [Fin.sum_univ_four] at this
  simpa using this

theorem sail_hull : plainHull demoBeam sailPts = some (tetraHull sail.a sail.b sail.c sail.d) ∧
    IsHull (tetraHull sail.a sail.b sail.c sail.d) sailPts := by
  have h : dot (cross (sail.b - sail.a) (sail.c - sail.a)) (sail.d - sail.a) ≠ 0 := by
    simp [sail, V3.cross, V3.dot]; norm_num
  refine ⟨?_, tetraHull_isHull _ _ _ _ h⟩
  unfold sailPts plainHull
  simp only
  rw [if_pos h]

theorem sail_ray : LongChord sailPts ((imgDet 1 1 (1/10)).pixelCoordinate 100 94) ⟨1, 0, 0⟩ := by
  have e : (imgDet 1 1 (1/10)).pixelCoordinate 100 94 = ⟨100, -6, 0⟩ := by
    unfold Detector.pixelCoordinate imgDet; ext <;> simp; norm_num
  rw [e]
  refine ⟨-101, -302/3, by norm_num, ?_, ?_⟩
  · apply sail_comb (5/6) (1/12) (1/12) 0 (by norm_num) (by norm_num) (by norm_num) (by norm_num) (by norm_num)
    ext <;> simp [sail] <;> norm_num
  · apply sail_comb (5/6) (1/24) (1/24) (1/12) (by norm_num) (by norm_num) (by norm_num) (by norm_num) (by norm_num)
    ext <;> simp [sail] <;> norm_num

/-- the macro image of the element is positive at pixel (100, 94) -/
theorem sail_lit : ∃ t, (imgDet 1 1 (1/10)).render blockEnv (imgDict [sailRow]) (oneTet sail) 1 .macro none (1/1000) =
    .ok (some t, (imgDet 1 1 (1/10)).peaksIntersection (imgDict [sailRow]) 1) ∧ 0 < t 0 100 94 := by
  set D := imgDet 1 1 (1/10) with hDD
  have hD : D.Ok := (Detector.new_ok (imgDet_new 1 1 (1/10) one_pos)).1
  have ho : D.Orthogonal := by show dot _ _ = 0; simp [hDD, imgDet, V3.dot]
  set H := tetraHull sail.a sail.b sail.c sail.d with hH
  have hp : H.points = sailPts := rfl
  have hIs : IsHull H H.points := sail_hull.2
  have hon : OnPixels D H.points ⟨1, 0, 0⟩ := sail_onPixels
  obtain ⟨a, n, c, m, z0, z1, y0, y1, hb, hn, hm, hnz, hny, za, zn, yc, ym, v1, v2, v3, v4, hd, hin⟩ := onPixels_box hD.pz hD.py hon
  have p1 : D.pz = 1 := rfl
  have p2 : D.py = 1 := rfl
  rw [p1] at za zn
  rw [p2] at yc ym
  rw [div_one] at za zn yc ym
  have ext : ∀ v ∈ sailPts, z0 ≤ v.z + 100 ∧ v.z + 100 ≤ z1 ∧ y0 ≤ v.y + 100 ∧ v.y + 100 ≤ y1 := by
    intro v hv
    obtain ⟨-, zd, yd, e1, e2, b⟩ := hin v (subset_convexHull ℝ _ hv)
    rw [hDD, imgDet_intersect' _ _ _ (sail_inside v hv).1] at e1 e2
    cases e1; cases e2
    exact b
  have b1 := ext ⟨-1, 4, -4⟩ (by simp [sailPts, sail])
  have b2 := ext ⟨-1, 4, 4⟩ (by simp [sailPts, sail])
  have b3 := ext ⟨-1, -8, 0⟩ (by simp [sailPts, sail])
  simp only at b1 b2 b3
  have fa : a ≤ 96 := by
    have : (a : ℤ) ≤ 96 := by rw [za]; exact Int.floor_le_iff.2 (by push_cast; linarith [b1.1])
    omega
  have fn : 104 < a + n := by
    have : (104 : ℤ) < ((a + n : ℕ) : ℤ) := by
      rw [zn]; have : (104 : ℤ) ≤ ⌊z1⌋ := Int.le_floor.2 (by push_cast; linarith [b2.2.1])
      omega
    omega
  have fc : c ≤ 92 := by
    have : (c : ℤ) ≤ 92 := by rw [yc]; exact Int.floor_le_iff.2 (by push_cast; linarith [b3.2.2.1])
    omega
  have fm : 104 < c + m := by
    have : (104 : ℤ) < ((c + m : ℕ) : ℤ) := by
      rw [ym]; have : (104 : ℤ) ≤ ⌊y1⌋ := Int.le_floor.2 (by push_cast; linarith [b2.2.2.2])
      omega
    omega
  have hnm : 4 < n * m := by nlinarith [show 9 ≤ n by omega, show 9 ≤ m by omega]
  set acc : Frame := fun i j => if i < n ∧ j < m then
    Detector.clipLength H.equations (D.pixelCoordinate (a + i) (c + j)) ⟨1, 0, 0⟩ else 0 with hacc
  have hacc0 : ∀ i j, 0 ≤ acc i j := by
    intro i j; simp only [hacc]; split_ifs
    · exact clipLength_nonneg _ _ _
    · exact le_rfl
  have hu : norm (⟨1, 0, 0⟩ : V3) = 1 := by rw [norm_eq_one]; simp [nsq, V3.dot]
  have haccp : 0 < acc (100 - a) (94 - c) := by
    simp only [hacc]
    rw [if_pos ⟨by omega, by omega⟩, show a + (100 - a) = 100 by omega, show c + (94 - c) = 94 by omega]
    exact clipLength_pos hIs hu sail_ray
  set T := ∑ i ∈ Finset.range n, ∑ j ∈ Finset.range m, acc i j with hT
  have hTp : 0 < T := by
    refine lt_of_lt_of_le haccp ?_
    refine le_trans ?_ (Finset.single_le_sum (f := fun i => ∑ j ∈ Finset.range m, acc i j) (fun i _ => Finset.sum_nonneg fun j _ => hacc0 i j)
      (Finset.mem_range.2 (show 100 - a < n by omega)))
    exact Finset.single_le_sum (f := fun j => acc (100 - a) j) (fun j _ => hacc0 _ j) (Finset.mem_range.2 (show 94 - c < m by omega))
  have hproj : D.projectHull blockEnv H ⟨1, 0, 0⟩ ((a:ℤ), ((a + n : ℕ):ℤ), (c:ℤ), ((c + m : ℕ):ℤ)) = .ok (some fun i j => acc i j / T * H.volume) := by
    unfold Detector.projectHull
    have k1 : ((((a + n : ℕ):ℤ) - (a:ℤ)).toNat) = n := by omega
    have k2 : ((((c + m : ℕ):ℤ) - (c:ℤ)).toNat) = m := by omega
    simp only [k1, k2]
    rw [if_neg (by omega), if_neg (by omega), ex_unit]
    simp only [Int.toNat_natCast]
    rw [if_neg hTp.ne']
  have hvol : H.volume = 64 := by
    rw [hH]; simp [tetraHull, sail, V3.dot, V3.cross]; norm_num
  have h28 : rcol sailHit 28 = 0 := by
    show ((frameOf 1 0 : ℤ) : ℝ) = 0
    simp [frameOf]
  have hadd : macroAdd D blockEnv demoBeam (oneTet sail) demoZ sailHit = .ok (some fun (i j : ℕ) =>
      if (a:ℤ) ≤ i ∧ (i:ℤ) < ((a + n : ℕ):ℤ) ∧ (c:ℤ) ≤ j ∧ (j:ℤ) < ((c + m : ℕ):ℤ) then
        0 + 1 * (acc (i - a) (j - c) / T * 64 * 1 * 1) else 0) := by
    unfold macroAdd Detector.macroPeak
    have hmv : Detector.movedVertices (oneTet sail) demoZ sailHit = sailPts :=
      movedVertices_of (d := imgDict [sailRow]) (oneTet_moved sail [sailRow] 1 1 0 64 0)
    rw [hmv, show blockEnv.hull demoBeam sailPts = some H from sail_hull.1]
    dsimp only
    have hk : (⟨rcol sailHit 13, rcol sailHit 14, rcol sailHit 15⟩ : V3) = ⟨1, 0, 0⟩ := rfl
    rw [hk, hb]
    dsimp only
    rw [hproj]
    dsimp only
    rw [p1, p2, hvol, show rcol sailHit 29 = 1 from rfl]
    simp only [Int.toNat_natCast]
  rw [render_macro, show max (1:ℤ) 1 = 1 from rfl, hDD, sail_hits, ← hDD, renderMacro_eq (by
    intro r hr; rw [List.mem_singleton] at hr; subst hr; exact ⟨0, by rw [h28]; simp, by norm_num⟩)]
  rw [if_neg (by rintro ⟨r, hr, he⟩; rw [List.mem_singleton] at hr; subst hr; exact absurd (hadd.symm.trans he) (by simp)),
    if_neg (by rintro ⟨r, hr, he⟩; rw [List.mem_singleton] at hr; subst hr; exact absurd (hadd.symm.trans he) (by simp))]
  refine ⟨_, rfl, ?_⟩
  rw [if_pos (by norm_num)]
  have hval : macroVal D blockEnv demoBeam (oneTet sail) demoZ sailHit = fun (i j : ℕ) =>
      if (a:ℤ) ≤ i ∧ (i:ℤ) < ((a + n : ℕ):ℤ) ∧ (c:ℤ) ≤ j ∧ (j:ℤ) < ((c + m : ℕ):ℤ) then
        0 + 1 * (acc (i - a) (j - c) / T * 64 * 1 * 1) else 0 := by
    unfold macroVal; rw [hadd]
  have hval0 : ∀ i j, 0 ≤ macroVal D blockEnv demoBeam (oneTet sail) demoZ sailHit i j := by
    intro i j; rw [hval]; dsimp only
    split_ifs
    · have := hacc0 (i - a) (j - c); positivity
    · exact le_rfl
  have hvalp : 0 < macroVal D blockEnv demoBeam (oneTet sail) demoZ sailHit 100 94 := by
    rw [hval]; dsimp only
    rw [if_pos ⟨by omega, by omega, by omega, by omega⟩]
    positivity
  have hT0 : (fun i j => ((([sailHit] : List (List Fl)).filter fun r => rcol r 28 = ((0 : ℕ) : ℝ)).map fun r =>
      macroVal D blockEnv demoBeam (oneTet sail) demoZ r i j).sum) = macroVal D blockEnv demoBeam (oneTet sail) demoZ sailHit := by
    funext i j
    rw [List.filter_cons, if_pos (by rw [h28]; simp)]
    simp
  show 0 < conv2d D.nz D.ny D.gaussKernel (fun i j => ((([sailHit] : List (List Fl)).filter fun r => rcol r 28 = ((0 : ℕ) : ℝ)).map fun r =>
      macroVal D blockEnv demoBeam (oneTet sail) demoZ r i j).sum) 100 94
  rw [hT0]
  obtain ⟨r, q1, -, -, -, q5, -⟩ := C28_point_spread_kernel D (by show (0:ℝ) < 1; norm_num) (by show (0:ℤ) ≤ 13; norm_num)
  have hi : 100 < D.nz := by show 100 < ⌈(200:ℝ) / 1⌉₊; rw [Nat.lt_ceil]; norm_num
  have hj : 94 < D.ny := by show 94 < ⌈(200:ℝ) / 1⌉₊; rw [Nat.lt_ceil]; norm_num
  unfold conv2d
  rw [if_pos ⟨hi, hj⟩, q1, show (2 * r + 1) / 2 = r by omega]
  have nn : ∀ x ∈ Finset.range (2 * r + 1), ∀ y ∈ Finset.range (2 * r + 1), 0 ≤ (if r ≤ 100 + x ∧ 100 + x - r < D.nz ∧ r ≤ 94 + y ∧ 94 + y - r < D.ny then
      macroVal D blockEnv demoBeam (oneTet sail) demoZ sailHit (100 + x - r) (94 + y - r) * D.gaussKernel.val x y else 0) := by
    intro x hx y hy
    split_ifs
    · exact mul_nonneg (hval0 _ _) (q5 x (Finset.mem_range.1 hx) y (Finset.mem_range.1 hy)).le
    · exact le_rfl
  refine lt_of_lt_of_le ?_ (le_trans (Finset.single_le_sum (f := fun y => if r ≤ 100 + r ∧ 100 + r - r < D.nz ∧ r ≤ 94 + y ∧ 94 + y - r < D.ny then
      macroVal D blockEnv demoBeam (oneTet sail) demoZ sailHit (100 + r - r) (94 + y - r) * D.gaussKernel.val r y else 0)
      (fun y hy => nn r (Finset.mem_range.2 (by omega)) y hy) (Finset.mem_range.2 (show r < 2 * r + 1 by omega)))
    (Finset.single_le_sum (f := fun x => ∑ y ∈ Finset.range (2 * r + 1), if r ≤ 100 + x ∧ 100 + x - r < D.nz ∧ r ≤ 94 + y ∧ 94 + y - r < D.ny then
      macroVal D blockEnv demoBeam (oneTet sail) demoZ sailHit (100 + x - r) (94 + y - r) * D.gaussKernel.val x y else 0)
      (fun x hx => Finset.sum_nonneg fun y hy => nn x hx y hy) (Finset.mem_range.2 (show r < 2 * r + 1 by omega))))
  beta_reduce
  rw [show 100 + r - r = 100 by omega, show 94 + r - r = 94 by omega, if_pos ⟨by omega, hi, by omega, hj⟩]
  exact mul_pos hvalp (q5 r (by omega) r (by omega))

/-- C105 fails for macro rendering without the restriction: the centre of an element hits the larger detector beyond the edge of the
smaller one, so that on the smaller detector nothing at all is drawn, also not the part of the element that projects well inside it. -/
theorem C105_macro_resized_fails : ∃ (D D' : Detector) (env : RenderEnv) (d : PeaksDict) (mesh : TetraMesh) (t t' : Stack) (out out' : PeaksDict),
    ResizedDetector D D' 1 2 ∧ TetraMesh.new sailPts [⟨0, 1, 2, 3⟩] = .ok mesh ∧
    d.columns = peakColumns ∧ (∀ r ∈ d.peaks, r.length = 25 ∧ val peakColumns r "volumes" = tetVolume sail) ∧
    D.render env d mesh 1 .macro none (1/1000) = .ok (some t, out) ∧ D'.render env d mesh 1 .macro none (1/1000) = .ok (some t', out') ∧
    FromFarEdges D 100 94 ∧ FromFarEdges D' 100 94 ∧ t 0 100 94 = 0 ∧ 0 < t' 0 100 94 := by
  have h7 : max 3 (3 * Real.sqrt ((7 / 10) ^ 2 + (1:ℝ) ^ 2) + 1) ≤ 5 := by
    have : Real.sqrt ((7 / 10) ^ 2 + (1:ℝ) ^ 2) ≤ 4 / 3 := by rw [Real.sqrt_le_left (by norm_num)]; norm_num
    exact max_le (by norm_num) (by linarith)
  set D' := imgDet 1 1 (1/10) with hD'
  have hnew : Detector.new ⟨100, -100, -100⟩ ⟨100, 0, -100⟩ ⟨100, -100, 100⟩ .absent (.both 1) 1 (1/10) 13 true true true = .ok (D'.resized 1 (1/2)) := by
    have := new_resized (α := 1) (β := 1/2) one_pos (by norm_num) (imgDet_new 1 1 (1/10) one_pos)
    have e1 : (⟨100, -100, -100⟩ : V3) + (1/2 : ℝ) • ((⟨100, 100, -100⟩ : V3) - ⟨100, -100, -100⟩) = ⟨100, 0, -100⟩ := by ext <;> simp; norm_num
    have e2 : (⟨100, -100, -100⟩ : V3) + (1 : ℝ) • ((⟨100, -100, 100⟩ : V3) - ⟨100, -100, -100⟩) = ⟨100, -100, 100⟩ := by ext <;> simp
    rw [e1, e2] at this
    exact this
  set D := D'.resized 1 (1/2) with hD
  obtain ⟨t', ht', hpos⟩ := sail_lit
  have hlen : ∀ r ∈ (imgDict [sailRow]).peaks, r.length = 25 ∧ val peakColumns r "volumes" = tetVolume sail := by
    intro r hr
    simp only [imgDict, List.mem_singleton] at hr
    subst hr
    exact ⟨rfl, by rw [sail_volume]; rfl⟩
  have hnone : (D.peaksIntersection (imgDict [sailRow]) 1).peaks = [] := by
    rw [peaksIntersection_rows _ _ _ (fun r hr => (hlen r hr).1)]
    have : ¬ D.contains ((D.rowIntersect sailRow).getD 0 nan) ((D.rowIntersect sailRow).getD 1 nan) := by
      have e : D.rowIntersect sailRow = [fin (0 + 100), fin (1 + 100), fin 0] := imgDet_rowIntersect 1 1 (1/10) 0 1 0 0 64 0
      rw [e]
      show ¬ D.contains (fin (0 + 100)) (fin (1 + 100))
      rw [contains_fin]
      rintro ⟨-, -, -, h⟩
      have : D.ymax = 1/2 * 200 := rfl
      rw [this] at h
      norm_num at h
    simp only [imgDict, List.filter_cons, List.filter_nil]
    rw [if_neg (fun h => this (of_decide_eq_true h).1)]
    rfl
  refine ⟨D, D', blockEnv, imgDict [sailRow], oneTet sail, _, t', _, _, ⟨one_pos, two_pos, _, _, _, _, _, _, _, _, _, _, hnew, ?_⟩, sail_mesh, rfl, hlen,
    (by rw [render_macro, show max (1:ℤ) 1 = 1 from rfl, hnone, renderMacro_eq (by simp), if_neg (by simp), if_neg (by simp)]; rfl), ht', ?_, ?_, ?_, hpos⟩
  · have := imgDet_new 1 1 (1/10) one_pos
    have e1 : (⟨100, -100, -100⟩ : V3) + (2 : ℝ) • ((⟨100, 0, -100⟩ : V3) - ⟨100, -100, -100⟩) = ⟨100, 100, -100⟩ := by ext <;> simp; norm_num
    have e2 : (⟨100, -100, -100⟩ : V3) + (1 : ℝ) • ((⟨100, -100, 100⟩ : V3) - ⟨100, -100, -100⟩) = ⟨100, -100, 100⟩ := by ext <;> simp
    rw [e1, e2]
    exact this
  · have hy := (Detector.new_ok hnew).1.ymax_eq
    have hz := (Detector.new_ok hnew).1.zmax_eq
    unfold FromFarEdges
    rw [← hy, ← hz]
    show ((100:ℕ):ℝ) + (max 3 (3 * Real.sqrt ((7 / 10) ^ 2 + (1:ℝ) ^ 2) + 1) + 1 / 2) < (1 * 200:ℝ) / 1 ∧
      ((94:ℕ):ℝ) + (max 3 (3 * Real.sqrt ((7 / 10) ^ 2 + (1:ℝ) ^ 2) + 1) + 1 / 2) < (1/2 * 200:ℝ) / 1
    push_cast
    constructor <;> linarith
  · have hy := (Detector.new_ok (imgDet_new 1 1 (1/10) one_pos)).1.ymax_eq
    have hz := (Detector.new_ok (imgDet_new 1 1 (1/10) one_pos)).1.zmax_eq
    unfold FromFarEdges
    rw [← hy, ← hz]
    show ((100:ℕ):ℝ) + (max 3 (3 * Real.sqrt ((7 / 10) ^ 2 + (1:ℝ) ^ 2) + 1) + 1 / 2) < (200:ℝ) / 1 ∧
      ((94:ℕ):ℝ) + (max 3 (3 * Real.sqrt ((7 / 10) ^ 2 + (1:ℝ) ^ 2) + 1) + 1 / 2) < (200:ℝ) / 1
    push_cast
    constructor <;> linarith
  · rw [if_pos (by norm_num)]
    exact conv2d_zero _ _ _ _ _

/-- the block on a detector of twice the height and three times the width -/
theorem block_resized_hits : (((imgDet 1 1 (1/10)).resized 2 3).peaksIntersection (imgDict [blockRow]) 1).peaks = [blockHit] := by
  have hS : ResizedDetector (imgDet 1 1 (1/10)) ((imgDet 1 1 (1/10)).resized 2 3) 2 3 :=
    ⟨by norm_num, by norm_num, _, _, _, _, _, _, _, _, _, _, imgDet_new 1 1 (1/10) one_pos, new_resized (by norm_num) (by norm_num) (imgDet_new 1 1 (1/10) one_pos)⟩
  have hl : ∀ r ∈ (imgDict [blockRow]).peaks, r.length = 25 := by
    intro r hr; have : r = blockRow := by simpa [imgDict] using hr
    rw [this]; rfl
  have h := (C105_hits_resized _ _ _ _ hS (imgDict [blockRow]) 1 rfl hl).2
  obtain ⟨hok, hok', -⟩ := resized_eq hS
  rw [block_hits, ← hok.zmax_eq, ← hok.ymax_eq, ← hok'.zmax_eq, ← hok'.ymax_eq] at h
  have e1 : val hitColumns blockHit "zd" = -1/8 + 100 := rfl
  have e2 : val hitColumns blockHit "yd" = -1/8 + 100 := rfl
  have z1 : (imgDet 1 1 (1/10)).zmax = 200 := rfl
  have z2 : (imgDet 1 1 (1/10)).ymax = 200 := rfl
  have z3 : ((imgDet 1 1 (1/10)).resized 2 3).zmax = 2 * 200 := rfl
  have z4 : ((imgDet 1 1 (1/10)).resized 2 3).ymax = 3 * 200 := rfl
  rw [z1, z2, z3, z4] at h
  rw [List.filter_cons, if_pos (decide_eq_true (by rw [e1, e2]; norm_num)), List.filter_nil] at h
  rw [peaksIntersection_rows _ _ _ hl] at h ⊢
  have hk : ∀ r ∈ (imgDict [blockRow]).peaks, val hitColumns (row30 ((imgDet 1 1 (1/10)).resized 2 3) 1 r) "zd" = -1/8 + 100 ∧
      val hitColumns (row30 ((imgDet 1 1 (1/10)).resized 2 3) 1 r) "yd" = -1/8 + 100 := by
    intro r hr
    have : r = blockRow := by simpa [imgDict] using hr
    subst this
    have ei : ((imgDet 1 1 (1/10)).resized 2 3).rowIntersect blockRow = [fin (-1/8 + 100), fin (-1/8 + 100), fin 0] :=
      imgDet_rowIntersect 1 1 (1/10) 0 (-1/8) (-1/8) 0 (75/8) 0
    unfold row30
    rw [ei]
    exact ⟨rfl, rfl⟩
  rw [List.filter_eq_self.2] at h
  · exact h
  · intro r hr
    obtain ⟨q, hq, rfl⟩ := List.mem_map.1 hr
    obtain ⟨a, b⟩ := hk q (List.mem_filter.1 hq).1
    rw [a, b]; norm_num

/-- the hypotheses of C105 are met: the block on two detectors, and an interior pixel of both -/
example : ∃ (D D' : Detector) (env : RenderEnv) (d : PeaksDict) (mesh : TetraMesh) (t' : Stack) (out' : PeaksDict),
    ResizedDetector D D' 2 3 ∧ FromFarEdges D 100 100 ∧ FromFarEdges D' 100 100 ∧ d.columns = peakColumns ∧ (∀ r ∈ d.peaks, r.length = 25) ∧
    (D'.peaksIntersection d 1).peaks ≠ [] ∧
    (∀ r ∈ (D'.peaksIntersection d (max 1 1)).peaks,
      (val hitColumns r "zd" ≤ norm (D.c2 - D.c0) ∧ val hitColumns r "yd" ≤ norm (D.c1 - D.c0)) ∧
      ∃ vs k, IsMoved d mesh (D'.peaksIntersection d (max 1 1)).columns r vs ∧ k = kOut (D'.peaksIntersection d (max 1 1)).columns r ∧
        ∀ H, env.hull d.beam vs = some H → OnPixels D H.points k) ∧
    D'.render env d mesh 1 .macro none (1/1000) = .ok (some t', out') := by
  have h7 : max 3 (3 * Real.sqrt ((7 / 10) ^ 2 + (1:ℝ) ^ 2) + 1) ≤ 5 := by
    have : Real.sqrt ((7 / 10) ^ 2 + (1:ℝ) ^ 2) ≤ 4 / 3 := by rw [Real.sqrt_le_left (by norm_num)]; norm_num
    exact max_le (by norm_num) (by linarith)
  have hnew := new_resized (α := 2) (β := 3) (by norm_num) (by norm_num) (imgDet_new 1 1 (1/10) one_pos)
  have hok := (Detector.new_ok (imgDet_new 1 1 (1/10) one_pos)).1
  have hok' := (Detector.new_ok hnew).1
  have hin : ∀ r ∈ (((imgDet 1 1 (1/10)).resized 2 3).peaksIntersection (imgDict [blockRow]) (max 1 1)).peaks,
      (val hitColumns r "zd" ≤ norm ((imgDet 1 1 (1/10)).c2 - (imgDet 1 1 (1/10)).c0) ∧ val hitColumns r "yd" ≤ norm ((imgDet 1 1 (1/10)).c1 - (imgDet 1 1 (1/10)).c0)) ∧
      ∃ vs k, IsMoved (imgDict [blockRow]) (oneTet block) (((imgDet 1 1 (1/10)).resized 2 3).peaksIntersection (imgDict [blockRow]) (max 1 1)).columns r vs ∧
        k = kOut (((imgDet 1 1 (1/10)).resized 2 3).peaksIntersection (imgDict [blockRow]) (max 1 1)).columns r ∧
        ∀ H, blockEnv.hull (imgDict [blockRow]).beam vs = some H → OnPixels (imgDet 1 1 (1/10)) H.points k := by
    rw [show max (1:ℤ) 1 = 1 from rfl, block_resized_hits]
    intro r hr
    rw [List.mem_singleton] at hr
    subst hr
    refine ⟨?_, blockPts, ⟨1, 0, 0⟩, oneTet_moved block _ 1 _ _ _ _, ?_, ?_⟩
    · rw [← hok.zmax_eq, ← hok.ymax_eq]
      show (-1/8 + 100 : ℝ) ≤ 200 ∧ (-1/8 + 100 : ℝ) ≤ 200
      norm_num
    · show _ = kOut hitColumns blockHit
      rw [kOut_eq]; rfl
    · intro H hH
      have hH' : plainHull demoBeam blockPts = some H := hH
      rw [block_hull.1] at hH'
      cases hH'
      exact block_onPixels
  obtain ⟨t', ht'⟩ : ∃ t, ((imgDet 1 1 (1/10)).resized 2 3).render blockEnv (imgDict [blockRow]) (oneTet block) 1 .macro none (1/1000) =
      .ok (some t, ((imgDet 1 1 (1/10)).resized 2 3).peaksIntersection (imgDict [blockRow]) 1) := by
    refine C64_macro_finite_partial _ _ _ _ _ _ _ _ _ _ _ _ hnew (by simp [V3.dot]) blockEnv meanSampler_inside
      (imgDict [blockRow]) rfl (by intro r hr; have : r = blockRow := by simpa [imgDict] using hr
                                   rw [this]; rfl) (oneTet block) 1 none (1/1000) ?_
    rw [show max (1:ℤ) 1 = 1 from rfl, block_resized_hits]
    intro r hr
    rw [List.mem_singleton] at hr
    subst hr
    refine ⟨blockPts, ⟨1, 0, 0⟩, oneTet_moved block _ 1 _ _ _ _, ?_, ?_⟩
    · show _ = kOut hitColumns blockHit
      rw [kOut_eq]; rfl
    · intro H hH
      have hH' : plainHull demoBeam blockPts = some H := hH
      rw [block_hull.1] at hH'
      cases hH'
      have hp : (tetraHull block.a block.b block.c block.d).points = blockPts := rfl
      rw [hp, ex_unit]
      refine ⟨block_hull.2, (box_resized hok (by norm_num) (by norm_num) block_onPixels).1, Or.inr ⟨?_, 100, 100, block_ray_corner⟩⟩
      intro n hn
      refine ⟨meanV blockPts, ?_, block_ray_centre⟩
      show meanV blockPts ∈ meanSampler (tetraHull block.a block.b block.c block.d) n
      unfold meanSampler
      rw [hp, if_neg (by simp [blockPts])]
      exact List.mem_replicate.mpr ⟨by omega, rfl⟩
  refine ⟨_, _, blockEnv, imgDict [blockRow], oneTet block, t', _, ⟨by norm_num, by norm_num, _, _, _, _, _, _, _, _, _, _, imgDet_new 1 1 (1/10) one_pos, hnew⟩,
    ?_, ?_, rfl, ?_, ?_, hin, ht'⟩
  · unfold FromFarEdges
    rw [← hok.zmax_eq, ← hok.ymax_eq]
    show ((100:ℕ):ℝ) + (max 3 (3 * Real.sqrt ((7 / 10) ^ 2 + (1:ℝ) ^ 2) + 1) + 1 / 2) < (200:ℝ) / 1 ∧
      ((100:ℕ):ℝ) + (max 3 (3 * Real.sqrt ((7 / 10) ^ 2 + (1:ℝ) ^ 2) + 1) + 1 / 2) < (200:ℝ) / 1
    push_cast; constructor <;> linarith
  · unfold FromFarEdges
    rw [← hok'.zmax_eq, ← hok'.ymax_eq]
    show ((100:ℕ):ℝ) + (max 3 (3 * Real.sqrt ((7 / 10) ^ 2 + (1:ℝ) ^ 2) + 1) + 1 / 2) < (2 * 200:ℝ) / 1 ∧
      ((100:ℕ):ℝ) + (max 3 (3 * Real.sqrt ((7 / 10) ^ 2 + (1:ℝ) ^ 2) + 1) + 1 / 2) < (3 * 200:ℝ) / 1
    push_cast; constructor <;> linarith
  · intro r hr; have : r = blockRow := by simpa [imgDict] using hr
    rw [this]; rfl
  · rw [block_resized_hits]; simp

end XRD
