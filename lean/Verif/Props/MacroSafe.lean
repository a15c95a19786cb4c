import Verif.Props.MacroScene
import Verif.Props.Clip

/-! Properties C64 and C65: macro rendering gives finite pixels and does not fail. -/

namespace XRD
open V3 M3 Fl Spec
open scoped Classical

/-- all points of a list project, along `k`, on whole pixels of the detector -/
def Spec.OnPixels (D : Detector) (points : List V3) (k : V3) : Prop :=
  points ≠ [] ∧ ∀ v ∈ points, ∃ zd yd : ℝ, (D.intersect k v).1 = fin zd ∧ (D.intersect k v).2.1 = fin yd ∧
    0 ≤ zd ∧ zd / D.pz < ⌊D.zmax / D.pz⌋ ∧ 0 ≤ yd ∧ yd / D.py < ⌊D.ymax / D.py⌋

/-- the ray from `s` along `k` hits the pixel `(i, j)` -/
def Spec.HitsPixel (D : Detector) (k s : V3) (i j : ℤ) : Prop :=
  ∃ zd yd : ℝ, (D.intersect k s).1 = fin zd ∧ (D.intersect k s).2.1 = fin yd ∧
    i ≤ zd / D.pz ∧ zd / D.pz < i + 1 ∧ j ≤ yd / D.py ∧ yd / D.py < j + 1

/-- random samples of a hull lie in the hull -/
def Spec.SamplesInside (sample : Hull → ℕ → List V3) : Prop :=
  ∀ H n, ∀ s ∈ sample H n, s ∈ convexHull ℝ {v : V3 | v ∈ H.points}

/-- the line through `p` along `u` has a chord longer than `10⁻¹²` in the hull of the points -/
def Spec.LongChord (points : List V3) (p u : V3) : Prop :=
  ∃ s t : ℝ, s + 1 / 10 ^ 12 < t ∧ p + s • u ∈ convexHull ℝ {v : V3 | v ∈ points} ∧ p + t • u ∈ convexHull ℝ {v : V3 | v ∈ points}

theorem halfspace_hull {vs : List V3} {n : V3} {c M : ℝ} (h : ∀ v ∈ vs, n.dot v + c ≤ M) :
    ∀ p ∈ convexHull ℝ {v : V3 | v ∈ vs}, n.dot p + c ≤ M := by
  have hc : Convex ℝ {p : V3 | n.dot p + c ≤ M} := by
    intro p hp q hq s t hs ht hst
    simp only [Set.mem_setOf_eq] at hp hq ⊢
    have e : n.dot (s • p + t • q) + c = s * (n.dot p + c) + t * (n.dot q + c) := by
      have hc : c = (s + t) * c := by rw [hst, _root_.one_mul]
      have : n.dot (s • p + t • q) = s * n.dot p + t * n.dot q := by simp [V3.dot]; ring
      rw [this]; conv_lhs => rw [hc]
      ring
    rw [e]
    calc s * (n.dot p + c) + t * (n.dot q + c) ≤ s * M + t * M := by gcongr
      _ = M := by rw [← add_mul, hst, _root_.one_mul]
  intro p hp
  exact convexHull_min (fun v hv => h v hv) hc hp

/-- the coordinate along `e` at which a ray from `p` meets the detector plane is affine in `p` -/
theorem plane_coord_affine (D : Detector) (k e : V3) : ∃ (n : V3) (c : ℝ), ∀ p : V3, dot (p + D.sOf k p • k - D.c0) e = n.dot p + c := by
  refine ⟨e - (k.dot e / k.dot D.normal) • D.normal, (D.c0.dot D.normal / k.dot D.normal) * k.dot e - D.c0.dot e, ?_⟩
  intro p
  unfold Detector.sOf
  simp [V3.dot]; ring

theorem sOf_affine (D : Detector) (k : V3) : ∃ (n : V3) (c : ℝ), ∀ p : V3, D.sOf k p = n.dot p + c := by
  refine ⟨(-1 / k.dot D.normal) • D.normal, D.c0.dot D.normal / k.dot D.normal, ?_⟩
  intro p
  unfold Detector.sOf
  simp [V3.dot]; ring

/-- rays along `k` and along its unit vector hit the same place -/
theorem intersect_unit {D : Detector} {k v : V3} (hf : IsFinite (D.intersect k v).1) :
    (D.intersect ((1 / k.norm) • k) v).1 = (D.intersect k v).1 ∧ (D.intersect ((1 / k.norm) • k) v).2.1 = (D.intersect k v).2.1 := by
  obtain ⟨hd, hs⟩ := Detector.intersect_finite hf
  have hk : k ≠ 0 := by rintro rfl; apply hd; simp [V3.dot]
  have hn : 0 < k.norm := V3.norm_pos.mpr hk
  have hd' : ((1 / k.norm) • k).dot D.normal = (1 / k.norm) * k.dot D.normal := dot_smul_left _ _ _
  have hs' : D.sOf ((1 / k.norm) • k) v = k.norm * D.sOf k v := by
    unfold Detector.sOf; rw [hd']; field_simp
  have e : D.sOf ((1 / k.norm) • k) v • ((1 / k.norm) • k) = D.sOf k v • k := by
    rw [hs', smul_smul]; congr 1; field_simp
  obtain ⟨a1, a2⟩ := Detector.intersect_val hd hs
  obtain ⟨b1, b2⟩ := Detector.intersect_val (D := D) (ray := (1 / k.norm) • k) (src := v) (by rw [hd']; positivity) (by rw [hs']; positivity)
  rw [a1, a2, b1, b2, e]
  exact ⟨rfl, rfl⟩

/-- the box of a projection on whole pixels: the pixels between the extreme vertices; everything in the hull projects between
them -/
theorem onPixels_box {D : Detector} (hpz : 0 < D.pz) (hpy : 0 < D.py) {points : List V3} {k : V3} (h : OnPixels D points k) :
    ∃ (a n c m : ℕ) (z0 z1 y0 y1 : ℝ), D.boundingBox points k = some ((a:ℤ), ((a + n : ℕ):ℤ), (c:ℤ), ((c + m : ℕ):ℤ)) ∧ 1 ≤ n ∧ 1 ≤ m ∧
      a + n ≤ D.nz ∧ c + m ≤ D.ny ∧
      (a:ℤ) = ⌊z0 / D.pz⌋ ∧ ((a + n : ℕ):ℤ) = ⌊z1 / D.pz⌋ + 1 ∧ (c:ℤ) = ⌊y0 / D.py⌋ ∧ ((c + m : ℕ):ℤ) = ⌊y1 / D.py⌋ + 1 ∧
      (∃ v ∈ points, (D.intersect k v).1 = fin z0) ∧ (∃ v ∈ points, (D.intersect k v).1 = fin z1) ∧
      (∃ v ∈ points, (D.intersect k v).2.1 = fin y0) ∧ (∃ v ∈ points, (D.intersect k v).2.1 = fin y1) ∧
      k.dot D.normal ≠ 0 ∧ 
      ∀ p ∈ convexHull ℝ {v : V3 | v ∈ points}, 0 ≤ D.sOf k p ∧ ∃ zd yd : ℝ, (D.intersect k p).1 = fin zd ∧ (D.intersect k p).2.1 = fin yd ∧
        z0 ≤ zd ∧ zd ≤ z1 ∧ y0 ≤ yd ∧ yd ≤ y1 := by
  obtain ⟨hne, hv⟩ := h
  have hz : ∀ x ∈ Detector.finites ((points.map fun v => D.intersect k v).map (·.1)), 0 ≤ x ∧ x / D.pz < ⌊D.zmax / D.pz⌋ ∧
      ∃ v ∈ points, (D.intersect k v).1 = fin x := by
    intro x hx
    rw [mem_finites] at hx
    obtain ⟨q, hq, h1⟩ := List.mem_map.mp hx
    obtain ⟨v, hvm, rfl⟩ := List.mem_map.mp hq
    obtain ⟨zd, yd, e1, e2, i1, i2, i3, i4⟩ := hv v hvm
    rw [e1] at h1
    cases h1
    exact ⟨i1, i2, v, hvm, e1⟩
  have hy : ∀ x ∈ Detector.finites ((points.map fun v => D.intersect k v).map (·.2.1)), 0 ≤ x ∧ x / D.py < ⌊D.ymax / D.py⌋ ∧
      ∃ v ∈ points, (D.intersect k v).2.1 = fin x := by
    intro x hx
    rw [mem_finites] at hx
    obtain ⟨q, hq, h1⟩ := List.mem_map.mp hx
    obtain ⟨v, hvm, rfl⟩ := List.mem_map.mp hq
    obtain ⟨zd, yd, e1, e2, i1, i2, i3, i4⟩ := hv v hvm
    rw [e2] at h1
    cases h1
    exact ⟨i3, i4, v, hvm, e2⟩
  have hmz : ∀ v ∈ points, ∀ zd, (D.intersect k v).1 = fin zd → zd ∈ Detector.finites ((points.map fun v => D.intersect k v).map (·.1)) := by
    intro v hvm zd e1
    rw [mem_finites]; exact List.mem_map.mpr ⟨D.intersect k v, List.mem_map.mpr ⟨v, hvm, rfl⟩, e1⟩
  have hmy : ∀ v ∈ points, ∀ yd, (D.intersect k v).2.1 = fin yd → yd ∈ Detector.finites ((points.map fun v => D.intersect k v).map (·.2.1)) := by
    intro v hvm yd e1
    rw [mem_finites]; exact List.mem_map.mpr ⟨D.intersect k v, List.mem_map.mpr ⟨v, hvm, rfl⟩, e1⟩
  obtain ⟨v0, hvm0⟩ := List.exists_mem_of_ne_nil _ hne
  obtain ⟨zd0, yd0, e10, e20, -⟩ := hv v0 hvm0
  obtain ⟨hd, -⟩ := Detector.intersect_finite (D := D) (ray := k) (src := v0) (by rw [e10]; trivial)
  have ax : ∀ {p M lo hi : ℝ}, 0 < p → 0 ≤ lo → hi / p < ⌊M / p⌋ → lo ≤ hi →
      max lo 0 = lo ∧ min hi M = hi ∧ ∃ a n : ℕ, Detector.pyInt (lo / p) = a ∧ min (Detector.pyInt (hi / p) + 1) (Detector.pyInt (M / p)) = ((a + n : ℕ) : ℤ) ∧
      1 ≤ n ∧ a + n ≤ ⌈M / p⌉₊ ∧ (a:ℤ) = ⌊lo / p⌋ ∧ ((a + n : ℕ) : ℤ) = ⌊hi / p⌋ + 1 := by
    intro p M lo hi hp h1 h2 hle
    have hlo : 0 ≤ lo / p := by positivity
    have hlh : lo / p ≤ hi / p := by gcongr
    have hfM := Int.floor_le (M / p)
    have hM : hi ≤ M := by
      have : hi / p ≤ M / p := by linarith
      exact (div_le_div_iff_of_pos_right hp).mp this
    have hfl : ⌊hi / p⌋ + 1 ≤ ⌊M / p⌋ := by
      have : ⌊hi / p⌋ < ⌊M / p⌋ := by
        have := Int.floor_le (hi / p)
        exact_mod_cast this.trans_lt h2
      omega
    have hfl0 : 0 ≤ ⌊lo / p⌋ := Int.floor_nonneg.mpr hlo
    have hfm : ⌊lo / p⌋ ≤ ⌊hi / p⌋ := Int.floor_mono hlh
    have hcM : ⌊M / p⌋ ≤ (⌈M / p⌉₊ : ℤ) := by
      have h3 := Nat.le_ceil (M / p)
      exact_mod_cast hfM.trans h3
    refine ⟨max_eq_left h1, min_eq_left hM, ⌊lo / p⌋.toNat, (⌊hi / p⌋ + 1 - ⌊lo / p⌋).toNat, ?_, ?_, ?_, ?_, ?_, ?_⟩
    · rw [pyInt_nonneg hlo]; omega
    · rw [pyInt_nonneg (hlo.trans hlh), pyInt_nonneg (by linarith), min_eq_left hfl]; omega
    all_goals omega
  unfold Detector.boundingBox
  simp only
  cases hzs : Detector.finites ((points.map fun v => D.intersect k v).map (·.1)) with
  | nil => have := hmz _ hvm0 _ e10; rw [hzs] at this; simp at this
  | cons z zs =>
    cases hys : Detector.finites ((points.map fun v => D.intersect k v).map (·.2.1)) with
    | nil => have := hmy _ hvm0 _ e20; rw [hys] at this; simp at this
    | cons y ys =>
      rw [hzs] at hz hmz
      rw [hys] at hy hmy
      simp only
      have zlo := hz _ (minL_mem z zs)
      have zhi := hz _ (maxL_mem z zs)
      have ylo := hy _ (minL_mem y ys)
      have yhi := hy _ (maxL_mem y ys)
      obtain ⟨z1, z2, a, n, z3, z4, z5, z6, z7, z8⟩ := ax hpz zlo.1 zhi.2.1 (minL_le_maxL z zs)
      obtain ⟨y1, y2, c, m, y3, y4, y5, y6, y7, y8⟩ := ax hpy ylo.1 yhi.2.1 (minL_le_maxL y ys)
      rw [z1, z2, y1, y2, if_neg (by push Not; exact ⟨minL_le_maxL _ _, minL_le_maxL _ _⟩)]
      unfold Detector.pixelIndex
      simp only [z3, z4, y3, y4]
      refine ⟨a, n, c, m, _, _, _, _, rfl, z5, y5, z6, y6, z7, z8, y7, y8, zlo.2.2, zhi.2.2, ylo.2.2, yhi.2.2, hd, ?_⟩
      have bz : ∀ x ∈ z :: zs, Detector.minL z zs ≤ x ∧ x ≤ Detector.maxL z zs := by
        intro x hx
        rcases List.mem_cons.mp hx with rfl | hx
        · exact ⟨minL_le.1, le_maxL.1⟩
        · exact ⟨minL_le.2 _ hx, le_maxL.2 _ hx⟩
      have by' : ∀ x ∈ y :: ys, Detector.minL y ys ≤ x ∧ x ≤ Detector.maxL y ys := by
        intro x hx
        rcases List.mem_cons.mp hx with rfl | hx
        · exact ⟨minL_le.1, le_maxL.1⟩
        · exact ⟨minL_le.2 _ hx, le_maxL.2 _ hx⟩
      have hvert : ∀ v ∈ points, 0 ≤ D.sOf k v ∧ (Detector.minL z zs ≤ dot (v + D.sOf k v • k - D.c0) D.zdhat ∧
          dot (v + D.sOf k v • k - D.c0) D.zdhat ≤ Detector.maxL z zs) ∧ Detector.minL y ys ≤ dot (v + D.sOf k v • k - D.c0) D.ydhat ∧
          dot (v + D.sOf k v • k - D.c0) D.ydhat ≤ Detector.maxL y ys := by
        intro v hvm
        obtain ⟨zd, yd, e1, e2, -⟩ := hv v hvm
        obtain ⟨-, hs⟩ := Detector.intersect_finite (D := D) (ray := k) (src := v) (by rw [e1]; trivial)
        obtain ⟨i1, i2⟩ := Detector.intersect_val hd hs
        exact ⟨hs, bz _ (hmz v hvm _ i1), by' _ (hmy v hvm _ i2)⟩
      obtain ⟨nz, cz, hnz⟩ := plane_coord_affine D k D.zdhat
      obtain ⟨ny, cy, hny⟩ := plane_coord_affine D k D.ydhat
      obtain ⟨ns, cs, hns⟩ := sOf_affine D k
      have neg : ∀ (n : V3) (p : V3), (-n).dot p = -(n.dot p) := fun n p => dot_neg_left n p
      intro p hp
      have hs : 0 ≤ D.sOf k p := by
        have := halfspace_hull (n := -ns) (c := -cs) (M := 0) (fun v hvm => by have := (hvert v hvm).1; rw [hns] at this; rw [neg]; linarith) p hp
        rw [hns]; rw [neg] at this; linarith
      obtain ⟨i1, i2⟩ := Detector.intersect_val hd hs
      refine ⟨hs, _, _, i1, i2, ?_, ?_, ?_, ?_⟩
      · have := halfspace_hull (n := -nz) (c := -cz) (M := -Detector.minL z zs) (fun v hvm => by
          have := (hvert v hvm).2.1.1; rw [hnz] at this; rw [neg]; linarith) p hp
        rw [hnz]; rw [neg] at this; linarith
      · have := halfspace_hull (n := nz) (c := cz) (M := Detector.maxL z zs) (fun v hvm => by
          have := (hvert v hvm).2.1.2; rw [hnz] at this; linarith) p hp
        rw [hnz]; linarith
      · have := halfspace_hull (n := -ny) (c := -cy) (M := -Detector.minL y ys) (fun v hvm => by
          have := (hvert v hvm).2.2.1; rw [hny] at this; rw [neg]; linarith) p hp
        rw [hny]; rw [neg] at this; linarith
      · have := halfspace_hull (n := ny) (c := cy) (M := Detector.maxL y ys) (fun v hvm => by
          have := (hvert v hvm).2.2.2; rw [hny] at this; linarith) p hp
        rw [hny]; linarith

theorem clipLength_nonneg (eqs : List HalfSpace) (p u : V3) : 0 ≤ Detector.clipLength eqs p u := by
  unfold Detector.clipLength
  split
  · split_ifs with h
    · have : (0:ℝ) < 1 / 10 ^ 12 := by norm_num
      linarith
    · exact le_rfl
  · exact le_rfl

theorem clipLength_pos {H : Hull} {vs : List V3} (hH : IsHull H vs) {p u : V3} (hu : norm u = 1) (h : LongChord vs p u) :
    0 < Detector.clipLength H.equations p u := by
  obtain ⟨s, t, hst, hs, ht⟩ := h
  rcases C36_clip_length_partial H vs hH p u hu (by
    intro e he h0
    have := (hH.faces _).mpr hs e he
    rw [dot_line, h0, mul_zero, add_zero] at this; exact this) with ⟨a, b, -, h1, h2⟩ | ⟨h1, -⟩
  · rw [h2]
    have : (0:ℝ) < 1 / 10 ^ 12 := by norm_num
    linarith
  · have := h1 s t hs ht
    linarith

/-- index arithmetic for a ray that lands between the extreme vertices -/
theorem wrap_pixel {p x x0 x1 : ℝ} (hp : 0 < p) {a n : ℕ} (ha : (a:ℤ) = ⌊x0 / p⌋) (hn : ((a + n : ℕ):ℤ) = ⌊x1 / p⌋ + 1) (h0 : x0 ≤ x) (h1 : x ≤ x1) :
    ∃ i < n, wrapIdx (Detector.pyInt (x / p) - a) n = some i ∧ (((a:ℤ) + (i:ℤ) : ℤ):ℝ) ≤ x / p ∧ x / p < (((a:ℤ) + (i:ℤ) : ℤ):ℝ) + 1 := by
  have f0 : ⌊x0 / p⌋ ≤ ⌊x / p⌋ := Int.floor_mono (by gcongr)
  have f1 : ⌊x / p⌋ ≤ ⌊x1 / p⌋ := Int.floor_mono (by gcongr)
  have hx : 0 ≤ x / p := by
    have : (0:ℤ) ≤ ⌊x / p⌋ := by omega
    exact Int.floor_nonneg.mp this
  have e : Detector.pyInt (x / p) = ⌊x / p⌋ := pyInt_nonneg hx
  have hi : ((a:ℤ) + (((⌊x / p⌋ - a).toNat : ℕ) : ℤ)) = ⌊x / p⌋ := by omega
  refine ⟨(⌊x / p⌋ - a).toNat, by omega, ?_, ?_, ?_⟩
  · unfold wrapIdx
    rw [e, if_pos (by omega)]
  · rw [hi]; exact Int.floor_le _
  · rw [hi]; exact Int.lt_floor_add_one _

/-- a ray hits at most one pixel -/
theorem hitsPixel_unique {D : Detector} {k s : V3} {i j i' j' : ℤ} (h : HitsPixel D k s i j) (h' : HitsPixel D k s i' j') : i = i' ∧ j = j' := by
  obtain ⟨zd, yd, e1, e2, a1, a2, a3, a4⟩ := h
  obtain ⟨zd', yd', e1', e2', b1, b2, b3, b4⟩ := h'
  rw [e1] at e1'; cases e1'
  rw [e2] at e2'; cases e2'
  have z1 : ⌊zd / D.pz⌋ = i := Int.floor_eq_iff.mpr ⟨a1, a2⟩
  have z2 : ⌊zd / D.pz⌋ = i' := Int.floor_eq_iff.mpr ⟨b1, b2⟩
  have y1 : ⌊yd / D.py⌋ = j := Int.floor_eq_iff.mpr ⟨a3, a4⟩
  have y2 : ⌊yd / D.py⌋ = j' := Int.floor_eq_iff.mpr ⟨b3, b4⟩
  exact ⟨z1.symm.trans z2, y1.symm.trans y2⟩

/-- sum of the clip lengths of the samples whose rays hit a pixel -/
noncomputable def Spec.pixelWeight (D : Detector) (H : Hull) (k : V3) (pts : List V3) (i j : ℤ) : ℝ :=
  ((pts.filter fun s => HitsPixel D k s i j).map fun s => Detector.clipLength H.equations s ((1 / k.norm) • k)).sum

/-- the sampling branch, when the projection lies on whole pixels -/
theorem projectHull_small {D : Detector} (hpz : 0 < D.pz) (hpy : 0 < D.py) {env : RenderEnv} (hs : SamplesInside env.sample) {H : Hull} {k : V3}
    (h : OnPixels D H.points k) {a n c m : ℕ} (hb : D.boundingBox H.points k = some ((a:ℤ), ((a + n : ℕ):ℤ), (c:ℤ), ((c + m : ℕ):ℤ)))
    (h1 : 1 < n * m) (h4 : n * m ≤ 4) :
    D.projectHull env H k ((a:ℤ), ((a + n : ℕ):ℤ), (c:ℤ), ((c + m : ℕ):ℤ)) =
      if ((env.sample H (7 * (n * m))).map fun s => Detector.clipLength H.equations s ((1 / k.norm) • k)).sum = 0 then .ok none
      else .ok (some fun i j => if i < n ∧ j < m then pixelWeight D H k (env.sample H (7 * (n * m))) (a + i) (c + j) /
        ((env.sample H (7 * (n * m))).map fun s => Detector.clipLength H.equations s ((1 / k.norm) • k)).sum * H.volume else 0) := by
  obtain ⟨a', n', c', m', z0, z1, y0, y1, hb', -, -, -, -, za, zn, yc, ym, -, -, -, -, hd, hp⟩ := onPixels_box hpz hpy h
  rw [hb] at hb'
  simp only [Option.some.injEq, Prod.mk.injEq] at hb'
  obtain ⟨ea, en, ec, em⟩ := hb'
  obtain rfl : a = a' := by omega
  obtain rfl : n = n' := by omega
  obtain rfl : c = c' := by omega
  obtain rfl : m = m' := by omega
  set u := (1 / k.norm) • k with hu
  set pts := env.sample H (7 * (n * m)) with hpts
  have ent : ∀ s ∈ pts, ∃ i < n, ∃ j < m, HitsPixel D k s ((a:ℤ) + i) ((c:ℤ) + j) ∧
      D.sampleEntry H u (a:ℤ) n (c:ℤ) m s = (some i, some j, Detector.clipLength H.equations s u) := by
    intro s hsm
    obtain ⟨-, zd, yd, e1, e2, b1, b2, b3, b4⟩ := hp s (hs H _ s hsm)
    obtain ⟨i, hi, w1, w2, w3⟩ := wrap_pixel hpz za zn b1 b2
    obtain ⟨j, hj, w4, w5, w6⟩ := wrap_pixel hpy yc ym b3 b4
    obtain ⟨u1, u2⟩ := intersect_unit (D := D) (k := k) (v := s) (by rw [e1]; trivial)
    refine ⟨i, hi, j, hj, ⟨zd, yd, e1, e2, w2, w3, w5, w6⟩, ?_⟩
    unfold Detector.sampleEntry
    rw [hu, u1, u2, e1, e2]
    simp only [w1, w4]
  have k1 : ((((a + n : ℕ):ℤ) - (a:ℤ)).toNat) = n := by omega
  have k2 : ((((c + m : ℕ):ℤ) - (c:ℤ)).toNat) = m := by omega
  unfold Detector.projectHull
  simp only [k1, k2, ← hu, ← hpts]
  rw [if_neg (by omega), if_pos h4]
  rw [if_neg]
  swap
  · rintro ⟨e, he, hn⟩
    obtain ⟨s, hsm, rfl⟩ := List.mem_map.mp he
    obtain ⟨i, -, j, -, -, hq⟩ := ent s hsm
    rw [hq] at hn
    simp at hn
  have hacc : ∀ i j : ℕ, (((pts.map fun s => D.sampleEntry H u (a:ℤ) n (c:ℤ) m s).filter fun e : Option ℕ × Option ℕ × ℝ => e.1 = some i ∧ e.2.1 = some j).map fun e => e.2.2).sum =
      if i < n ∧ j < m then pixelWeight D H k pts (a + i) (c + j) else 0 := by
    intro i j
    unfold pixelWeight
    rw [← hu]
    clear_value pts
    clear hpts
    induction pts with
    | nil => simp
    | cons s pts ih =>
      obtain ⟨i', hi', j', hj', hh, hq⟩ := ent s List.mem_cons_self
      have ih' := ih fun q hq => ent q (List.mem_cons_of_mem _ hq)
      rw [List.map_cons, List.filter_cons, hq]
      by_cases hij : i' = i ∧ j' = j
      · obtain ⟨rfl, rfl⟩ := hij
        rw [if_pos (by simp), List.map_cons, List.sum_cons, ih', if_pos ⟨hi', hj'⟩, if_pos ⟨hi', hj'⟩, List.filter_cons, if_pos (by simpa using hh),
          List.map_cons, List.sum_cons]
      · rw [if_neg (by simpa using hij), ih']
        split_ifs with hr
        · rw [List.filter_cons, if_neg]
          simp only [decide_eq_true_eq]
          intro h2
          obtain ⟨q1, q2⟩ := hitsPixel_unique hh h2
          exact hij ⟨by omega, by omega⟩
        · rfl
  simp only [hacc]
  have htot : ∑ i ∈ Finset.range n, ∑ j ∈ Finset.range m, (if i < n ∧ j < m then pixelWeight D H k pts (a + i) (c + j) else 0) =
      (pts.map fun s => Detector.clipLength H.equations s u).sum := by
    have e1 : ∀ i ∈ Finset.range n, ∑ j ∈ Finset.range m, (if i < n ∧ j < m then pixelWeight D H k pts (a + i) (c + j) else 0) =
        ∑ j ∈ Finset.range m, pixelWeight D H k pts (a + i) (c + j) := by
      intro i hi
      apply Finset.sum_congr rfl
      intro j hj
      rw [if_pos ⟨Finset.mem_range.mp hi, Finset.mem_range.mp hj⟩]
    rw [Finset.sum_congr rfl e1]
    unfold pixelWeight
    rw [← hu]
    clear hacc e1
    clear_value pts
    clear hpts
    induction pts with
    | nil => simp
    | cons s pts ih =>
      have ih' := ih fun q hq => ent q (List.mem_cons_of_mem _ hq)
      obtain ⟨i', hi', j', hj', hh, -⟩ := ent s List.mem_cons_self
      rw [List.map_cons, List.sum_cons, ← ih']
      have : ∀ i j : ℕ, (((s :: pts).filter fun s => HitsPixel D k s ((a:ℤ) + i) ((c:ℤ) + j)).map fun s => Detector.clipLength H.equations s u).sum =
          (if i = i' then if j = j' then Detector.clipLength H.equations s u else 0 else 0) +
          ((pts.filter fun s => HitsPixel D k s ((a:ℤ) + i) ((c:ℤ) + j)).map fun s => Detector.clipLength H.equations s u).sum := by
        intro i j
        rw [List.filter_cons]
        by_cases hij : i = i' ∧ j = j'
        · obtain ⟨rfl, rfl⟩ := hij
          rw [if_pos (by simpa using hh), List.map_cons, List.sum_cons, if_pos rfl, if_pos rfl]
        · rw [if_neg]
          · have : (if i = i' then if j = j' then Detector.clipLength H.equations s u else 0 else 0) = 0 := by
              split_ifs with q1 q2
              · exact absurd ⟨q1, q2⟩ hij
              · rfl
              · rfl
            rw [this, _root_.zero_add]
          · simp only [decide_eq_true_eq]
            intro h2
            obtain ⟨q1, q2⟩ := hitsPixel_unique hh h2
            exact hij ⟨by omega, by omega⟩
      simp only [this, Finset.sum_add_distrib]
      congr 1
      have e3 : ∀ i ∈ Finset.range n, (∑ j ∈ Finset.range m, if i = i' then if j = j' then Detector.clipLength H.equations s u else 0 else 0) =
          if i = i' then Detector.clipLength H.equations s u else 0 := by
        intro i _
        split_ifs
        · rw [Finset.sum_ite_eq', if_pos (Finset.mem_range.mpr hj')]
        · simp
      rw [Finset.sum_congr rfl e3, Finset.sum_ite_eq', if_pos (Finset.mem_range.mpr hi')]
  rw [htot]
  have hnm : n * m ≠ 0 := by omega
  by_cases h0 : (pts.map fun s => Detector.clipLength H.equations s u).sum = 0
  · rw [if_pos ⟨h0, hnm⟩, if_pos h0]
  · rw [if_neg (fun h => h0 h.1), if_neg h0]
    congr 2
    funext i j
    split_ifs <;> simp

/-- outcome of a projection on whole pixels, by the number of pixels in the box -/
theorem projectHull_onPixels {D : Detector} (hpz : 0 < D.pz) (hpy : 0 < D.py) {env : RenderEnv} (hs : SamplesInside env.sample) {H : Hull} {k : V3}
    (h : OnPixels D H.points k) : ∃ a n c m : ℕ, D.boundingBox H.points k = some ((a:ℤ), ((a + n : ℕ):ℤ), (c:ℤ), ((c + m : ℕ):ℤ)) ∧
      ∃ r, D.projectHull env H k ((a:ℤ), ((a + n : ℕ):ℤ), (c:ℤ), ((c + m : ℕ):ℤ)) = .ok r := by
  obtain ⟨a, n, c, m, z0, z1, y0, y1, hb, hn, hm, -⟩ := onPixels_box hpz hpy h
  refine ⟨a, n, c, m, hb, ?_⟩
  have hnm : 1 ≤ n * m := Nat.mul_pos hn hm
  by_cases h1 : n * m = 1
  · have k1 : ((((a + n : ℕ):ℤ) - (a:ℤ)).toNat) = n := by omega
    have k2 : ((((c + m : ℕ):ℤ) - (c:ℤ)).toNat) = m := by omega
    unfold Detector.projectHull
    simp only [k1, k2]
    rw [if_pos h1]
    exact ⟨_, rfl⟩
  by_cases h4 : n * m ≤ 4
  · rw [projectHull_small hpz hpy hs h hb (by omega) h4]
    split_ifs <;> exact ⟨_, rfl⟩
  · have k1 : ((((a + n : ℕ):ℤ) - (a:ℤ)).toNat) = n := by omega
    have k2 : ((((c + m : ℕ):ℤ) - (c:ℤ)).toNat) = m := by omega
    unfold Detector.projectHull
    simp only [k1, k2]
    rw [if_neg h1, if_neg h4]
    split_ifs <;> exact ⟨_, rfl⟩

/-- C65, for elements whose illuminated part projects on whole pixels of the detector: macro rendering of the hits does not fail,
whatever points the sampler draws in the hulls.  Missing: elements that overhang the detector, see `C65_overhang_fails`. -/
theorem C65_macro_no_failure_partial (D : Detector) (hpz : 0 < D.pz) (hpy : 0 < D.py) (env : RenderEnv) (hs : SamplesInside env.sample)
    (d : PeaksDict) (hcol : d.columns = peakColumns) (hlen : ∀ r ∈ d.peaks, r.length = 25) (mesh : TetraMesh) (frames : ℤ) (ml : Option ℝ) (mi : ℝ)
    (h : ∀ r ∈ (D.peaksIntersection d (max frames 1)).peaks, ∃ vs, IsMoved d mesh (D.peaksIntersection d (max frames 1)).columns r vs ∧
      ∀ H, env.hull d.beam vs = some H → OnPixels D H.points (kOut (D.peaksIntersection d (max frames 1)).columns r)) :
    ∃ t, D.render env d mesh frames .macro ml mi = .ok (t, D.peaksIntersection d (max frames 1)) := by
  rw [render_macro]
  set n := max frames 1 with hn
  have hn1 : 1 ≤ n := le_max_right _ _
  have hfr : ∀ r ∈ (D.peaksIntersection d n).peaks, ∃ k : ℕ, rcol r 28 = k ∧ k < n.toNat := by
    intro r hr
    obtain ⟨q, -, -, ⟨k, hk, h0, h1⟩, -⟩ := hitRows hn1 hlen r hr
    refine ⟨k.toNat, ?_, by omega⟩
    rw [hk]; exact_mod_cast (Int.toNat_of_nonneg h0).symm
  have hc : (D.peaksIntersection d n).columns = hitColumns := by show d.columns ++ _ = _; rw [hcol]; rfl
  rw [hc] at h
  rw [renderMacro_eq hfr, if_neg]
  · split_ifs <;> exact ⟨_, rfl⟩
  · rintro ⟨r, hr, he⟩
    obtain ⟨vs, hmv, hH⟩ := h r hr
    unfold macroAdd Detector.macroPeak at he
    rw [movedVertices_of hmv] at he
    cases hh : env.hull d.beam vs with
    | none => rw [hh] at he; cases he
    | some H =>
      have hin := hH H hh
      rw [kOut_eq] at hin
      obtain ⟨a, n, c, m, hb, x, hx⟩ := projectHull_onPixels hpz hpy hs hin
      rw [hh] at he
      simp only [hb, hx] at he
      cases x <;> cases he

/-- C65, second part: with two to four pixels in the box, the part of the volume given to a pixel is the part of the clip lengths
contributed by those sampled rays that hit this very pixel. -/
theorem C65_rays_in_their_pixels_partial (D : Detector) (hpz : 0 < D.pz) (hpy : 0 < D.py) (env : RenderEnv) (hs : SamplesInside env.sample)
    (H : Hull) (k : V3) (h : OnPixels D H.points k) (r0 r1 q0 q1 : ℤ) (hb : D.boundingBox H.points k = some (r0, r1, q0, q1))
    (h1 : 1 < (r1 - r0) * (q1 - q0)) (h4 : (r1 - r0) * (q1 - q0) ≤ 4) (pr : Frame) (hp : D.projectHull env H k (r0, r1, q0, q1) = .ok (some pr)) :
    ∃ pts : List V3, pts = env.sample H (7 * ((r1 - r0) * (q1 - q0)).toNat) ∧
      (∀ s ∈ pts, ∃ i j : ℕ, r0 + i < r1 ∧ q0 + j < q1 ∧ HitsPixel D k s (r0 + i) (q0 + j)) ∧
      ∀ i j : ℕ, r0 + i < r1 → q0 + j < q1 →
        pr i j * (pts.map fun s => Detector.clipLength H.equations s ((1 / k.norm) • k)).sum =
          H.volume * ((pts.filter fun s => HitsPixel D k s (r0 + i) (q0 + j)).map fun s => Detector.clipLength H.equations s ((1 / k.norm) • k)).sum := by
  obtain ⟨a, n, c, m, z0, z1, y0, y1, hb', hn, hm, -, -, za, zn, yc, ym, -, -, -, -, hd, hh⟩ := onPixels_box hpz hpy h
  have hbb := hb
  rw [hb'] at hbb
  simp only [Option.some.injEq, Prod.mk.injEq] at hbb
  obtain ⟨rfl, rfl, rfl, rfl⟩ := hbb
  have e : (((a + n : ℕ):ℤ) - (a:ℤ)) * (((c + m : ℕ):ℤ) - (c:ℤ)) = ((n * m : ℕ):ℤ) := by push_cast; ring
  rw [e] at h1 h4 ⊢
  rw [Int.toNat_natCast]
  refine ⟨_, rfl, ?_, ?_⟩
  · intro s hsm
    obtain ⟨-, zd, yd, e1, e2, b1, b2, b3, b4⟩ := hh s (hs H _ s hsm)
    obtain ⟨i, hi, w1, w2, w3⟩ := wrap_pixel hpz za zn b1 b2
    obtain ⟨j, hj, w4, w5, w6⟩ := wrap_pixel hpy yc ym b3 b4
    exact ⟨i, j, by omega, by omega, zd, yd, e1, e2, w2, w3, w5, w6⟩
  · intro i j hi hj
    rw [projectHull_small hpz hpy hs h hb (by omega) (by omega)] at hp
    split_ifs at hp with h0
    · cases hp
    · cases hp
      beta_reduce
      rw [if_pos ⟨by omega, by omega⟩]
      unfold pixelWeight
      field_simp

/-- `p` of the detector plane, hit by the ray from a point of the hull, is within the extreme vertices -/
theorem corner_in_box {D : Detector} (hD : D.Ok) (ho : D.Orthogonal) {k : V3} (hd : k.dot D.normal ≠ 0) {i j : ℕ} {s : ℝ} {q : V3}
    (hq : q = D.pixelCoordinate i j + s • ((1 / k.norm) • k)) (h0 : 0 ≤ D.sOf k q) :
    (D.intersect k q).1 = fin (i * D.pz) ∧ (D.intersect k q).2.1 = fin (j * D.py) := by
  obtain ⟨h1, h2⟩ := Detector.intersect_val hd h0
  obtain ⟨o1, o2⟩ := hD.orth ho
  have hzn : dot D.zdhat D.normal = 0 := by rw [o2]; simp [V3.dot, V3.cross]; ring
  have hyn : dot D.ydhat D.normal = 0 := by rw [o2]; simp [V3.dot, V3.cross]; ring
  have hk : k ≠ 0 := by rintro rfl; apply hd; simp [V3.dot]
  have hn : 0 < k.norm := V3.norm_pos.mpr hk
  have hs : D.sOf k q = -(s / k.norm) := by
    unfold Detector.sOf
    have : dot (D.c0 - q) D.normal = -(s / k.norm) * k.dot D.normal := by
      rw [hq]; unfold Detector.pixelCoordinate
      rw [dot_sub_left, dot_add_left, dot_add_left, dot_add_left, dot_smul_left, dot_smul_left, dot_smul_left, dot_smul_left, hzn, hyn]; ring
    rw [this]; field_simp
  have hpt : q + D.sOf k q • k - D.c0 = ((i:ℝ) * D.pz) • D.zdhat + ((j:ℝ) * D.py) • D.ydhat := by
    rw [hs, hq]; unfold Detector.pixelCoordinate
    ext <;> simp <;> ring
  rw [h1, h2, hpt, dot_add_left, dot_add_left, dot_smul_left, dot_smul_left, dot_smul_left, dot_smul_left, o1, V3.dot_comm D.ydhat D.zdhat, o1]
  have z1 : dot D.zdhat D.zdhat = 1 := hD.zn
  have y1 : dot D.ydhat D.ydhat = 1 := hD.yn
  rw [z1, y1]
  constructor <;> congr 1 <;> ring

/-- outcome of a projection with a visible chord -/
theorem projectHull_finite {D : Detector} (hD : D.Ok) (ho : D.Orthogonal) {env : RenderEnv} (hs : SamplesInside env.sample)
    {H : Hull} {k : V3} (hH : IsHull H H.points) (h : OnPixels D H.points k) {i0 j0 : ℤ}
    (hch : (∀ v ∈ H.points, HitsPixel D k v i0 j0) ∨ ((∀ n, 0 < n → ∃ s ∈ env.sample H n, LongChord H.points s ((1 / k.norm) • k)) ∧
      ∃ i j : ℕ, LongChord H.points (D.pixelCoordinate i j) ((1 / k.norm) • k))) :
    ∃ a n c m : ℕ, D.boundingBox H.points k = some ((a:ℤ), ((a + n : ℕ):ℤ), (c:ℤ), ((c + m : ℕ):ℤ)) ∧
      ∃ pr, D.projectHull env H k ((a:ℤ), ((a + n : ℕ):ℤ), (c:ℤ), ((c + m : ℕ):ℤ)) = .ok (some pr) := by
  have hpz := hD.pz
  have hpy := hD.py
  obtain ⟨a, n, c, m, z0, z1, y0, y1, hb, hn, hm, -, -, za, zn, yc, ym, v1, v2, v3, v4, hd, hin⟩ := onPixels_box hpz hpy h
  refine ⟨a, n, c, m, hb, ?_⟩
  have hk : k ≠ 0 := by rintro rfl; apply hd; simp [V3.dot]
  have hkn : 0 < k.norm := V3.norm_pos.mpr hk
  have hu : norm ((1 / k.norm) • k) = 1 := norm_eq_one.mpr (nsq_unit hk)
  have hnm : 1 ≤ n * m := Nat.mul_pos hn hm
  have k1 : ((((a + n : ℕ):ℤ) - (a:ℤ)).toNat) = n := by omega
  have k2 : ((((c + m : ℕ):ℤ) - (c:ℤ)).toNat) = m := by omega
  by_cases h1 : n * m = 1
  · unfold Detector.projectHull
    simp only [k1, k2]
    rw [if_pos h1]
    exact ⟨_, rfl⟩
  have hch : (∀ n, 0 < n → ∃ s ∈ env.sample H n, LongChord H.points s ((1 / k.norm) • k)) ∧
      ∃ i j : ℕ, LongChord H.points (D.pixelCoordinate i j) ((1 / k.norm) • k) := by
    rcases hch with hch | hch
    · exfalso
      apply h1
      have f : ∀ v ∈ H.points, ∀ x, (D.intersect k v).1 = fin x → ⌊x / D.pz⌋ = i0 := by
        intro v hv x hx
        obtain ⟨zd, yd, e1, e2, b1, b2, -⟩ := hch v hv
        rw [e1] at hx; cases hx
        exact Int.floor_eq_iff.mpr ⟨b1, b2⟩
      have g : ∀ v ∈ H.points, ∀ x, (D.intersect k v).2.1 = fin x → ⌊x / D.py⌋ = j0 := by
        intro v hv x hx
        obtain ⟨zd, yd, e1, e2, -, -, b1, b2⟩ := hch v hv
        rw [e2] at hx; cases hx
        exact Int.floor_eq_iff.mpr ⟨b1, b2⟩
      obtain ⟨w1, hw1, x1⟩ := v1
      obtain ⟨w2, hw2, x2⟩ := v2
      obtain ⟨w3, hw3, x3⟩ := v3
      obtain ⟨w4, hw4, x4⟩ := v4
      rw [f w1 hw1 _ x1] at za
      rw [f w2 hw2 _ x2] at zn
      rw [g w3 hw3 _ x3] at yc
      rw [g w4 hw4 _ x4] at ym
      have : n = 1 := by omega
      have : m = 1 := by omega
      subst_vars; norm_num
    · exact hch
  by_cases h4 : n * m ≤ 4
  · rw [projectHull_small hpz hpy hs h hb (by omega) h4, if_neg]
    · exact ⟨_, rfl⟩
    · obtain ⟨s, hsm, hl⟩ := hch.1 (7 * (n * m)) (by omega)
      have hpos := clipLength_pos hH hu hl
      have : Detector.clipLength H.equations s ((1 / k.norm) • k) ≤
          ((env.sample H (7 * (n * m))).map fun s => Detector.clipLength H.equations s ((1 / k.norm) • k)).sum :=
        List.single_le_sum (fun x hx => by
          obtain ⟨q, -, rfl⟩ := List.mem_map.mp hx
          exact clipLength_nonneg _ _ _) _ (List.mem_map.mpr ⟨s, hsm, rfl⟩)
      intro h0
      rw [h0] at this
      linarith
  · obtain ⟨i, j, hl⟩ := hch.2
    have hpos := clipLength_pos hH hu hl
    obtain ⟨s, t, -, hq, -⟩ := hl
    obtain ⟨h0, zd, yd, e1, e2, b1, b2, b3, b4⟩ := hin _ hq
    obtain ⟨f1, f2⟩ := corner_in_box hD ho hd rfl h0
    rw [f1] at e1; cases e1
    rw [f2] at e2; cases e2
    have fi : ⌊(i:ℝ) * D.pz / D.pz⌋ = (i:ℤ) := by rw [mul_div_assoc, div_self hpz.ne', _root_.mul_one]; exact Int.floor_natCast i
    have fj : ⌊(j:ℝ) * D.py / D.py⌋ = (j:ℤ) := by rw [mul_div_assoc, div_self hpy.ne', _root_.mul_one]; exact Int.floor_natCast j
    have g1 : ⌊z0 / D.pz⌋ ≤ ⌊(i:ℝ) * D.pz / D.pz⌋ := Int.floor_mono (by gcongr)
    have g2 : ⌊(i:ℝ) * D.pz / D.pz⌋ ≤ ⌊z1 / D.pz⌋ := Int.floor_mono (by gcongr)
    have g3 : ⌊y0 / D.py⌋ ≤ ⌊(j:ℝ) * D.py / D.py⌋ := Int.floor_mono (by gcongr)
    have g4 : ⌊(j:ℝ) * D.py / D.py⌋ ≤ ⌊y1 / D.py⌋ := Int.floor_mono (by gcongr)
    rw [fi] at g1 g2
    rw [fj] at g3 g4
    unfold Detector.projectHull
    simp only [k1, k2]
    rw [if_neg h1, if_neg h4, if_neg]
    · exact ⟨_, rfl⟩
    · simp only [Int.toNat_natCast]
      intro hz
      have nn : ∀ i j : ℕ, 0 ≤ (if i < n ∧ j < m then Detector.clipLength H.equations (D.pixelCoordinate (a + i) (c + j)) ((1 / k.norm) • k) else 0) := by
        intro i j
        split_ifs
        · exact clipLength_nonneg _ _ _
        · exact le_rfl
      rw [Finset.sum_eq_zero_iff_of_nonneg (fun i _ => Finset.sum_nonneg fun j _ => nn i j)] at hz
      have hz1 := hz (i - a) (Finset.mem_range.mpr (by omega))
      rw [Finset.sum_eq_zero_iff_of_nonneg (fun j _ => nn _ j)] at hz1
      have hz2 := hz1 (j - c) (Finset.mem_range.mpr (by omega))
      rw [if_pos ⟨by omega, by omega⟩, show a + (i - a) = i by omega, show c + (j - c) = j by omega] at hz2
      rw [hz2] at hpos
      exact lt_irrefl _ hpos

/-- C64, for elements projecting on whole pixels that are seen by the rays that are traced: the projection stays inside one pixel,
or both the samples drawn contain a point, and the pixel corners contain a corner, whose line along the scattered direction has
a chord longer than `10⁻¹²` in the illuminated part.  Then macro rendering returns finite pixels.  Missing: slender elements that no
pixel corner sees, see `C64_sliver_fails`. -/
theorem C64_macro_finite_partial (c0 c1 c2 : V3) (np : PixArg ℤ) (ps : PixArg ℝ) (sg th : ℝ) (mr : ℤ) (lo po st : Bool) (D : Detector)
    (hnew : Detector.new c0 c1 c2 np ps sg th mr lo po st = .ok D) (hrect : dot (c2 - c0) (c1 - c0) = 0) (env : RenderEnv) (hs : SamplesInside env.sample)
    (d : PeaksDict) (hcol : d.columns = peakColumns) (hlen : ∀ r ∈ d.peaks, r.length = 25) (mesh : TetraMesh) (frames : ℤ) (ml : Option ℝ) (mi : ℝ)
    (h : ∀ r ∈ (D.peaksIntersection d (max frames 1)).peaks, ∃ vs k, IsMoved d mesh (D.peaksIntersection d (max frames 1)).columns r vs ∧
      k = kOut (D.peaksIntersection d (max frames 1)).columns r ∧
      ∀ H, env.hull d.beam vs = some H → IsHull H H.points ∧ OnPixels D H.points k ∧
        ((∃ i j : ℤ, ∀ v ∈ H.points, HitsPixel D k v i j) ∨
          ((∀ n, 0 < n → ∃ s ∈ env.sample H n, LongChord H.points s ((1 / k.norm) • k)) ∧
            ∃ i j : ℕ, LongChord H.points (D.pixelCoordinate i j) ((1 / k.norm) • k)))) :
    ∃ t, D.render env d mesh frames .macro ml mi = .ok (some t, D.peaksIntersection d (max frames 1)) := by
  obtain ⟨hD, rfl, rfl, rfl, -⟩ := Detector.new_ok hnew
  have ho : D.Orthogonal := hrect
  rw [render_macro]
  set n := max frames 1 with hn
  have hn1 : 1 ≤ n := le_max_right _ _
  have hfr : ∀ r ∈ (D.peaksIntersection d n).peaks, ∃ k : ℕ, rcol r 28 = k ∧ k < n.toNat := by
    intro r hr
    obtain ⟨q, -, -, ⟨k, hk, h0, h1⟩, -⟩ := hitRows hn1 hlen r hr
    refine ⟨k.toNat, ?_, by omega⟩
    rw [hk]; exact_mod_cast (Int.toNat_of_nonneg h0).symm
  have hc : (D.peaksIntersection d n).columns = hitColumns := by show d.columns ++ _ = _; rw [hcol]; rfl
  rw [hc] at h
  have key : ∀ r ∈ (D.peaksIntersection d n).peaks, ∃ f, macroAdd D env d.beam mesh d.motion r = .ok (some f) := by
    intro r hr
    obtain ⟨vs, k, hmv, hk, hH⟩ := h r hr
    rw [kOut_eq] at hk
    subst hk
    unfold macroAdd Detector.macroPeak
    rw [movedVertices_of hmv]
    cases hh : env.hull d.beam vs with
    | none => exact ⟨_, rfl⟩
    | some H =>
      obtain ⟨h1, h2, h3⟩ := hH H hh
      have : ∃ i0 j0 : ℤ, (∀ v ∈ H.points, HitsPixel D ⟨rcol r 13, rcol r 14, rcol r 15⟩ v i0 j0) ∨
        ((∀ n, 0 < n → ∃ s ∈ env.sample H n, LongChord H.points s ((1 / V3.norm ⟨rcol r 13, rcol r 14, rcol r 15⟩) • ⟨rcol r 13, rcol r 14, rcol r 15⟩)) ∧
            ∃ i j : ℕ, LongChord H.points (D.pixelCoordinate i j) ((1 / V3.norm ⟨rcol r 13, rcol r 14, rcol r 15⟩) • ⟨rcol r 13, rcol r 14, rcol r 15⟩)) := by
        rcases h3 with ⟨i, j, h3⟩ | h3
        · exact ⟨i, j, Or.inl h3⟩
        · exact ⟨0, 0, Or.inr h3⟩
      obtain ⟨i0, j0, h3⟩ := this
      obtain ⟨a, n, c, m, hb, x, hx⟩ := projectHull_finite hD ho hs h1 h2 h3
      simp only [hb, hx]
      exact ⟨_, rfl⟩
  rw [renderMacro_eq hfr, if_neg, if_neg]
  · exact ⟨_, rfl⟩
  · rintro ⟨r, hr, he⟩
    obtain ⟨f, hf⟩ := key r hr
    rw [hf] at he; cases he
  · rintro ⟨r, hr, he⟩
    obtain ⟨f, hf⟩ := key r hr
    rw [hf] at he; cases he

end XRD
