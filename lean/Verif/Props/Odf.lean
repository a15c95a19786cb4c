import Verif.Model.Templates
import Mathlib.Analysis.SpecialFunctions.Trigonometric.Bounds
import Mathlib.Analysis.Real.Pi.Bounds

/-! C48: the discretisation and sampling of orientation space. -/

namespace XRD
open V3 M3 Fl
open Classical

theorem odfEps_pos : 0 < odfEps := by unfold odfEps; positivity

/-- antiderivative of `sin²` -/
noncomputable def sinSqInt (x : ℝ) : ℝ := (1 / 2) * (x - Real.sin x * Real.cos x)

theorem abs_sin_sub_le (x y : ℝ) : |Real.sin x - Real.sin y| ≤ |x - y| := by
  have := Real.lipschitzWith_sin.dist_le_mul x y
  simpa [Real.dist_eq] using this
theorem abs_cos_sub_le (x y : ℝ) : |Real.cos x - Real.cos y| ≤ |x - y| := by
  have := Real.lipschitzWith_cos.dist_le_mul x y
  simpa [Real.dist_eq] using this

theorem sinSqInt_diff (x y : ℝ) : |sinSqInt x - sinSqInt y| ≤ |x - y| := by
  have h := abs_sin_sub_le (2 * x) (2 * y)
  have e : sinSqInt x - sinSqInt y = (1 / 2) * (x - y) - (1 / 4) * (Real.sin (2 * x) - Real.sin (2 * y)) := by
    unfold sinSqInt; rw [Real.sin_two_mul, Real.sin_two_mul]; ring
  rw [e]
  have h2 : |2 * x - 2 * y| = 2 * |x - y| := by rw [← mul_sub, abs_mul]; norm_num
  rw [h2] at h
  calc _ ≤ |(1 / 2) * (x - y)| + |(1 / 4) * (Real.sin (2 * x) - Real.sin (2 * y))| := abs_sub _ _
    _ = (1 / 2) * |x - y| + (1 / 4) * |Real.sin (2 * x) - Real.sin (2 * y)| := by
      rw [abs_mul, abs_mul]; norm_num
    _ ≤ _ := by linarith

/-- telescoping of a function over consecutive bins -/
theorem axis_sum (F : ℝ → ℝ) (d s : ℝ) (m : ℕ) :
    ((List.range m).map fun i : ℕ => F (s + d / 2 + i * d + d / 2) - F (s + d / 2 + i * d - d / 2)).sum = F (s + m * d) - F s := by
  induction m with
  | zero => simp
  | succ m ih =>
    rw [List.range_succ, List.map_append, List.sum_append, ih]
    simp only [List.map_cons, List.map_nil, List.sum_cons, List.sum_nil]
    have h1 : s + d / 2 + (m : ℝ) * d + d / 2 = s + ((m + 1 : ℕ) : ℝ) * d := by push_cast; ring
    have h2 : s + d / 2 + (m : ℝ) * d - d / 2 = s + m * d := by ring
    rw [h1, h2]; ring

/-- number of bins along an axis -/
noncomputable def axisCount (d top : ℝ) : ℕ := ⌈(top - 2 * odfEps) / d⌉₊

theorem odfAxis_eq (d top : ℝ) :
    odfAxis d top = (List.range (axisCount d top)).map fun i : ℕ => odfEps + d / 2 + i * d := by
  unfold odfAxis arange axisCount
  rw [show top - d / 2 - odfEps + d - (0 + d / 2 + odfEps) = top - 2 * odfEps by ring]
  apply List.map_congr_left
  intro i _; ring

theorem axisSum (F : ℝ → ℝ) (d top : ℝ) :
    ((odfAxis d top).map fun a => F (a + d / 2) - F (a - d / 2)).sum = F (odfEps + axisCount d top * d) - F odfEps := by
  rw [odfAxis_eq, List.map_map, ← axis_sum]
  rfl

/-- the upper end of the last bin is within `ε` of the top of the axis, if the step divides the axis -/
theorem axis_top {d top : ℝ} (hd : 0 < d) (n : ℕ) (hn : n * d = top) (ht : 2 * odfEps ≤ top) :
    |odfEps + axisCount d top * d - top| ≤ odfEps := by
  have he := odfEps_pos
  unfold axisCount
  have h1 : (top - 2 * odfEps) / d ≤ ⌈(top - 2 * odfEps) / d⌉₊ := Nat.le_ceil _
  have h2 : ⌈(top - 2 * odfEps) / d⌉₊ ≤ n := by
    rw [Nat.ceil_le, div_le_iff₀ hd, hn]; linarith
  rw [div_le_iff₀ hd] at h1
  have h3 : (⌈(top - 2 * odfEps) / d⌉₊ : ℝ) * d ≤ n * d := by
    have : (⌈(top - 2 * odfEps) / d⌉₊ : ℝ) ≤ n := by exact_mod_cast h2
    exact mul_le_mul_of_nonneg_right this hd.le
  rw [abs_le]; constructor <;> linarith

theorem axisCount_eq {d top : ℝ} (hd : 2 * odfEps < d) (n : ℕ) (hn : n * d = top) : axisCount d top = n := by
  have he := odfEps_pos
  have hd0 : 0 < d := by linarith
  unfold axisCount
  subst hn
  rcases Nat.eq_zero_or_pos n with h | h
  · subst h; rw [Nat.cast_zero, MulZeroClass.zero_mul, _root_.zero_sub, Nat.ceil_eq_zero]
    apply div_nonpos_of_nonpos_of_nonneg <;> linarith
  · rw [Nat.ceil_eq_iff (by omega)]
    constructor
    · rw [lt_div_iff₀ hd0]
      push_cast [h]
      nlinarith
    · rw [div_le_iff₀ hd0]; linarith

theorem sum_grid (f g h : ℝ → ℝ) (l1 l2 l3 : List ℝ) :
    ((l1.flatMap fun a => l2.flatMap fun b => l3.map fun c => (a, b, c)).map fun A : ℝ × ℝ × ℝ => f A.1 * g A.2.1 * h A.2.2).sum =
      (l1.map f).sum * (l2.map g).sum * (l3.map h).sum := by
  have e3 : ∀ a b : ℝ, (l3.map fun c => f a * g b * h c).sum = f a * g b * (l3.map h).sum := by
    intro a b; rw [List.sum_map_mul_left]
  have e2 : ∀ (a : ℝ) (l : List ℝ), ((l.flatMap fun b => l3.map fun c => (a, b, c)).map fun A : ℝ × ℝ × ℝ => f A.1 * g A.2.1 * h A.2.2).sum =
      f a * (l.map g).sum * (l3.map h).sum := by
    intro a l
    induction l with
    | nil => simp
    | cons b l ih =>
      rw [List.flatMap_cons, List.map_append, List.sum_append, ih, List.map_map]
      have := e3 a b
      simp only [Function.comp_def]
      rw [this, List.map_cons, List.sum_cons]; ring
  induction l1 with
  | nil => simp
  | cons a l ih =>
    rw [List.flatMap_cons, List.map_append, List.sum_append, ih, e2, List.map_cons, List.sum_cons]; ring

theorem binVolume_eq (d : ℝ) (A : ℝ × ℝ × ℝ) :
    binVolume d A = (sinSqInt (A.1 + d / 2) - sinSqInt (A.1 - d / 2)) *
      ((fun x => -Real.cos x) (A.2.1 + d / 2) - (fun x => -Real.cos x) (A.2.1 - d / 2)) *
      ((fun x : ℝ => x) (A.2.2 + d / 2) - (fun x : ℝ => x) (A.2.2 - d / 2)) := by
  unfold binVolume sinSqInt
  dsimp only
  rw [sub_neg_eq_add]

theorem total_volume_eq (d : ℝ) : ((odfGrid d).map (binVolume d)).sum =
    (sinSqInt (odfEps + axisCount d (Real.pi / 2) * d) - sinSqInt odfEps) *
    (-Real.cos (odfEps + axisCount d Real.pi * d) - -Real.cos odfEps) *
    ((odfEps + axisCount d (2 * Real.pi) * d) - odfEps) := by
  unfold odfGrid
  rw [show binVolume d = _ from funext (binVolume_eq d)]
  rw [sum_grid (fun a => sinSqInt (a + d / 2) - sinSqInt (a - d / 2))
    (fun a => (fun x => -Real.cos x) (a + d / 2) - (fun x => -Real.cos x) (a - d / 2))
    (fun a => (fun x : ℝ => x) (a + d / 2) - (fun x : ℝ => x) (a - d / 2))]
  rw [axisSum sinSqInt, axisSum (fun x => -Real.cos x), axisSum (fun x : ℝ => x)]

/-- bins per quarter turn -/
theorem odfBins_pos {sep : ℝ} (h0 : 0 < sep) (h1 : sep ≤ Real.pi) :
    ∃ N : ℕ, 0 < N ∧ odfBins sep = N ∧ (N : ℝ) ≤ Real.pi / sep ∧ Real.pi / sep < N + 1 ∧ odfStep sep = Real.pi / 2 / N := by
  have hpi := Real.pi_pos
  have e : Real.pi / (sep / 2 * 2) = Real.pi / sep := by congr 1; ring
  have h2 : 1 ≤ Real.pi / sep := by rw [le_div_iff₀ h0]; linarith
  have h3 : odfBins sep = (⌊Real.pi / sep⌋₊ : ℤ) := by
    unfold odfBins Detector.pyInt
    rw [e, if_pos (by linarith), ← Int.natCast_floor_eq_floor (by linarith)]
  refine ⟨⌊Real.pi / sep⌋₊, Nat.floor_pos.mpr h2, h3, Nat.floor_le (by linarith), Nat.lt_floor_add_one _, ?_⟩
  unfold odfStep; rw [h3]; push_cast; rfl

theorem volume_close {d : ℝ} (N : ℕ) (hN : 0 < N) (hd : d = Real.pi / 2 / N) :
    |((odfGrid d).map (binVolume d)).sum - Real.pi ^ 2| < 1 / 10 ^ 5 := by
  have hpi := Real.pi_pos
  have hpi3 := Real.pi_gt_three
  have hpi4 := Real.pi_le_four
  have hN' : (0 : ℝ) < N := by exact_mod_cast hN
  have hd0 : 0 < d := by rw [hd]; positivity
  have he := odfEps_pos
  have he' : odfEps = 1 / 10 ^ 8 := rfl
  have t1 := axis_top hd0 N (top := Real.pi / 2) (by rw [hd]; field_simp) (by rw [he']; linarith)
  have t2 := axis_top hd0 (2 * N) (top := Real.pi) (by rw [hd]; push_cast; field_simp) (by rw [he']; linarith)
  have t3 := axis_top hd0 (4 * N) (top := 2 * Real.pi) (by rw [hd]; push_cast; field_simp; ring) (by rw [he']; linarith)
  rw [total_volume_eq]
  set U1 := odfEps + axisCount d (Real.pi / 2) * d
  set U2 := odfEps + axisCount d Real.pi * d
  set U3 := odfEps + axisCount d (2 * Real.pi) * d
  have q1 : |sinSqInt U1 - sinSqInt odfEps - Real.pi / 4| ≤ 2 * odfEps := by
    have a := sinSqInt_diff U1 (Real.pi / 2)
    have b := sinSqInt_diff odfEps 0
    have c1 : sinSqInt (Real.pi / 2) = Real.pi / 4 := by unfold sinSqInt; simp; ring
    have c0 : sinSqInt 0 = 0 := by unfold sinSqInt; simp
    rw [c1] at a; rw [c0, sub_zero, sub_zero, abs_of_pos he] at b
    have a := a.trans t1
    rw [abs_le] at *
    constructor <;> linarith
  have q2 : |-Real.cos U2 - -Real.cos odfEps - 2| ≤ 2 * odfEps := by
    have a := abs_cos_sub_le U2 Real.pi
    have b := abs_cos_sub_le odfEps 0
    rw [Real.cos_pi] at a; rw [Real.cos_zero, sub_zero, abs_of_pos he] at b
    have a := a.trans t2
    rw [abs_le] at *
    constructor <;> linarith
  have q3 : |U3 - odfEps - 2 * Real.pi| ≤ 2 * odfEps := by
    rw [abs_le] at *
    constructor <;> linarith
  obtain ⟨x, hx⟩ : ∃ x, sinSqInt U1 - sinSqInt odfEps = Real.pi / 4 + x := ⟨sinSqInt U1 - sinSqInt odfEps - Real.pi / 4, by ring⟩
  obtain ⟨y, hy⟩ : ∃ y, -Real.cos U2 - -Real.cos odfEps = 2 + y := ⟨-Real.cos U2 - -Real.cos odfEps - 2, by ring⟩
  obtain ⟨z, hz⟩ : ∃ z, U3 - odfEps = 2 * Real.pi + z := ⟨U3 - odfEps - 2 * Real.pi, by ring⟩
  rw [hx, hy, hz]
  rw [hx] at q1; rw [hy] at q2; rw [hz] at q3
  have r1 : |x| ≤ 2 * odfEps := by convert q1 using 2; ring
  have r2 : |y| ≤ 2 * odfEps := by convert q2 using 2; ring
  have r3 : |z| ≤ 2 * odfEps := by convert q3 using 2; ring
  have e : (Real.pi / 4 + x) * (2 + y) * (2 * Real.pi + z) - Real.pi ^ 2 =
      (4 * Real.pi) * x + (Real.pi ^ 2 / 2) * y + (Real.pi / 2) * z + 2 * Real.pi * (x * y) + 2 * (x * z) + Real.pi / 4 * (y * z) + x * y * z := by
    ring
  rw [e]
  have hs : 2 * odfEps ≤ 1 := by rw [he']; norm_num
  have b0 : ∀ a b : ℝ, |a| ≤ 2 * odfEps → |b| ≤ 2 * odfEps → |a * b| ≤ 2 * odfEps := by
    intro a b ha hb
    rw [abs_mul]
    calc |a| * |b| ≤ (2 * odfEps) * 1 := mul_le_mul ha (hb.trans hs) (abs_nonneg _) (by positivity)
      _ = _ := _root_.mul_one _
  have bx := b0 x y r1 r2
  have bxz := b0 x z r1 r3
  have byz := b0 y z r2 r3
  have bxyz := b0 (x * y) z bx r3
  have tr : ∀ (c a : ℝ), 0 ≤ c → |a| ≤ 2 * odfEps → |c * a| ≤ c * (2 * odfEps) := by
    intro c a hc ha; rw [abs_mul, abs_of_nonneg hc]; exact mul_le_mul_of_nonneg_left ha hc
  have s1 := tr (4 * Real.pi) x (by positivity) r1
  have s2 := tr (Real.pi ^ 2 / 2) y (by positivity) r2
  have s3 := tr (Real.pi / 2) z (by positivity) r3
  have s4 := tr (2 * Real.pi) (x * y) (by positivity) bx
  have s5 := tr 2 (x * z) (by positivity) bxz
  have s6 := tr (Real.pi / 4) (y * z) (by positivity) byz
  have hp2 : Real.pi ^ 2 ≤ 16 := by nlinarith
  have hsum : |(4 * Real.pi) * x + (Real.pi ^ 2 / 2) * y + (Real.pi / 2) * z + 2 * Real.pi * (x * y) + 2 * (x * z) + Real.pi / 4 * (y * z) + x * y * z| ≤
      (4 * Real.pi + Real.pi ^ 2 / 2 + Real.pi / 2 + 2 * Real.pi + 2 + Real.pi / 4 + 1) * (2 * odfEps) := by
    rw [abs_le] at *
    constructor <;> linarith
  refine lt_of_le_of_lt hsum ?_
  have : (4 * Real.pi + Real.pi ^ 2 / 2 + Real.pi / 2 + 2 * Real.pi + 2 + Real.pi / 4 + 1) ≤ 40 := by linarith
  rw [he']
  nlinarith

theorem alphaToQuat_unit (a1 a2 a3 : ℝ) :
    (alphaToQuat a1 a2 a3).x ^ 2 + (alphaToQuat a1 a2 a3).y ^ 2 + (alphaToQuat a1 a2 a3).z ^ 2 + (alphaToQuat a1 a2 a3).w ^ 2 = 1 := by
  unfold alphaToQuat
  simp only
  have h1 := Real.sin_sq_add_cos_sq a1
  have h2 := Real.sin_sq_add_cos_sq a2
  have h3 := Real.sin_sq_add_cos_sq a3
  linear_combination h1 + Real.sin a1 ^ 2 * h2 + Real.sin a1 ^ 2 * Real.sin a2 ^ 2 * h3

theorem quatToMatrix_isRot (q : Quat) (h : q.x ^ 2 + q.y ^ 2 + q.z ^ 2 + q.w ^ 2 = 1) : IsRot (quatToMatrix q) := by
  obtain ⟨x, y, z, w⟩ := q
  simp only at h
  unfold quatToMatrix
  simp only [h, Real.sqrt_one, div_one]
  have key : ∀ m : M3, m.tr * m = 1 → m.det = 1 → IsRot m := by
    intro m h1 h2
    refine ⟨h1, ?_, h2⟩
    have := inv_unique (m := m) (n := m.tr) (by rw [h2]; norm_num) h1
    rw [← this]; exact mul_inv (by rw [h2]; norm_num)
  apply key
  · ext <;> simp only [tr, mul_r0, mul_r1, mul_r2, vecMul, one_r0, one_r1, one_r2]
    · linear_combination (x^2+y^2+z^2+w^2+1) * h
    · ring
    · ring
    · ring
    · linear_combination (x^2+y^2+z^2+w^2+1) * h
    · ring
    · ring
    · ring
    · linear_combination (x^2+y^2+z^2+w^2+1) * h
  · simp only [det]
    have e : (x^2+y^2+z^2+w^2)^3 = 1 := by rw [h]; norm_num
    linear_combination e

/-- rotation of `v` by the unit quaternion with vector part `u` and scalar part `w` (textbook formula) -/
noncomputable def Spec.quatRotate (q : Quat) (v : V3) : V3 :=
  let u : V3 := ⟨q.x, q.y, q.z⟩
  (q.w ^ 2 - dot u u) • v + (2 * dot u v) • u + (2 * q.w) • cross u v

theorem quatToMatrix_mulVec (q : Quat) (h : q.x ^ 2 + q.y ^ 2 + q.z ^ 2 + q.w ^ 2 = 1) (v : V3) :
    (quatToMatrix q).mulVec v = Spec.quatRotate q v := by
  obtain ⟨x, y, z, w⟩ := q
  simp only at h
  unfold quatToMatrix Spec.quatRotate
  simp only [h, Real.sqrt_one, div_one, mulVec]
  ext <;> simp [V3.dot, V3.cross] <;> ring

theorem odfAxis_length (d top : ℝ) : (odfAxis d top).length = axisCount d top := by
  rw [odfAxis_eq]; simp

theorem odfGrid_length (d : ℝ) : (odfGrid d).length =
    axisCount d (Real.pi / 2) * axisCount d Real.pi * axisCount d (2 * Real.pi) := by
  unfold odfGrid
  simp only [List.length_flatMap, List.length_map, List.map_const', List.sum_replicate, smul_eq_mul, odfAxis_length]
  ring

/-- C48 (every separation): for every bin separation in `(0, π]` there is a whole number `N` of bins per quarter turn, the
bins have width `π/(2N)`, not more than the separation asked for, and the volumes of all bins add up to `π²` within `1e-5`, so
the internal assertion never fires. -/
theorem C48_volume (sep : ℝ) (h0 : 0 < sep) (h1 : sep ≤ Real.pi) :
    ∃ N : ℕ, 0 < N ∧ odfStep sep = Real.pi / (2 * N) ∧ odfStep sep ≤ sep ∧
      |((odfGrid (odfStep sep)).map (binVolume (odfStep sep))).sum - Real.pi ^ 2| < 1 / 10 ^ 5 := by
  obtain ⟨N, hN, -, h2, h3, h4⟩ := odfBins_pos h0 h1
  have hN' : (1 : ℝ) ≤ N := by exact_mod_cast hN
  refine ⟨N, hN, ?_, ?_, volume_close N hN h4⟩
  · rw [h4]; field_simp
  · rw [h4, div_div, div_le_iff₀ (by positivity)]
    rw [div_lt_iff₀ h0] at h3
    nlinarith

theorem odfStep_gt {sep : ℝ} (h0 : 4 / 10 ^ 8 < sep) (h1 : sep ≤ Real.pi) : 2 * odfEps < odfStep sep := by
  have hs : 0 < sep := lt_trans (by norm_num) h0
  obtain ⟨N, hN, -, h2, h3, h4⟩ := odfBins_pos hs h1
  have hN' : (1 : ℝ) ≤ N := by exact_mod_cast hN
  rw [h4, lt_div_iff₀ (by positivity)]
  rw [le_div_iff₀ hs] at h2
  unfold odfEps
  nlinarith

theorem sinSqInt_lt {x y : ℝ} (h : x < y) (hlt : y - x < Real.pi) : sinSqInt x < sinSqInt y := by
  have e : sinSqInt y - sinSqInt x = (1 / 2) * ((y - x) - Real.sin (y - x) * Real.cos (y + x)) := by
    unfold sinSqInt
    have : Real.sin y * Real.cos y - Real.sin x * Real.cos x = Real.sin (y - x) * Real.cos (y + x) := by
      rw [Real.sin_sub, Real.cos_add]
      have hx := Real.sin_sq_add_cos_sq x
      have hy := Real.sin_sq_add_cos_sq y
      linear_combination (-(Real.sin y * Real.cos y)) * hx + (Real.sin x * Real.cos x) * hy
    linear_combination (-1 / 2) * this
  have h1 : 0 < Real.sin (y - x) := Real.sin_pos_of_pos_of_lt_pi (by linarith) hlt
  have h2 := Real.sin_lt (show 0 < y - x by linarith)
  have h3 := Real.cos_le_one (y + x)
  nlinarith [mul_le_mul_of_nonneg_left h3 h1.le]

/-- C48 (number of bins): for every separation in `(4e-8, π]` the three angles have `N`, `2N` and `4N` bins, `8N³` altogether,
where `N` is the whole part of `π / sep`; the bin centres are equidistant with the bins side by side starting at `1e-8`, and
every bin has positive volume.  (Below `4e-8` the offset `1e-8` exceeds half a bin; more than `10²³` bins would be needed.) -/
theorem C48_bins (sep : ℝ) (h0 : 4 / 10 ^ 8 < sep) (h1 : sep ≤ Real.pi) :
    (odfAxis (odfStep sep) (Real.pi / 2)).length = ⌊Real.pi / sep⌋₊ ∧
    (odfAxis (odfStep sep) Real.pi).length = 2 * ⌊Real.pi / sep⌋₊ ∧
    (odfAxis (odfStep sep) (2 * Real.pi)).length = 4 * ⌊Real.pi / sep⌋₊ ∧
    (odfGrid (odfStep sep)).length = 8 * ⌊Real.pi / sep⌋₊ ^ 3 ∧
    (∀ A : ℝ × ℝ × ℝ, A ∈ odfGrid (odfStep sep) ↔ ∃ i < ⌊Real.pi / sep⌋₊, ∃ j < 2 * ⌊Real.pi / sep⌋₊, ∃ k < 4 * ⌊Real.pi / sep⌋₊,
      A = (1 / 10 ^ 8 + (i + 1 / 2) * odfStep sep, 1 / 10 ^ 8 + (j + 1 / 2) * odfStep sep, 1 / 10 ^ 8 + (k + 1 / 2) * odfStep sep)) ∧
    ∀ A ∈ odfGrid (odfStep sep), 0 < binVolume (odfStep sep) A := by
  have hs : 0 < sep := lt_trans (by norm_num) h0
  have hpi := Real.pi_pos
  have hgt := odfStep_gt h0 h1
  obtain ⟨N, hN, hN1, h2, h3, h4⟩ := odfBins_pos hs h1
  have hN' : (1 : ℝ) ≤ N := by exact_mod_cast hN
  have hfl : ⌊Real.pi / sep⌋₊ = N := by
    rw [Nat.floor_eq_iff (by positivity)]; exact ⟨h2, h3⟩
  rw [hfl]
  set d := odfStep sep with hd
  have he := odfEps_pos
  have hd0 : 0 < d := by linarith
  have c1 := axisCount_eq hgt N (top := Real.pi / 2) (by rw [h4]; field_simp)
  have c2 := axisCount_eq hgt (2 * N) (top := Real.pi) (by rw [h4]; push_cast; field_simp)
  have c3 := axisCount_eq hgt (4 * N) (top := 2 * Real.pi) (by rw [h4]; push_cast; field_simp; ring)
  have hmem : ∀ A : ℝ × ℝ × ℝ, A ∈ odfGrid d ↔ ∃ i < N, ∃ j < 2 * N, ∃ k < 4 * N,
      A = (1 / 10 ^ 8 + ((i : ℝ) + 1 / 2) * d, 1 / 10 ^ 8 + ((j : ℝ) + 1 / 2) * d, 1 / 10 ^ 8 + ((k : ℝ) + 1 / 2) * d) := by
    intro A
    have e : ∀ i : ℕ, odfEps + d / 2 + i * d = 1 / 10 ^ 8 + ((i : ℝ) + 1 / 2) * d := by
      intro i; unfold odfEps; ring
    unfold odfGrid
    rw [odfAxis_eq, odfAxis_eq, odfAxis_eq, c1, c2, c3]
    simp only [List.mem_flatMap, List.mem_map, List.mem_range, e]
    constructor
    · rintro ⟨_, ⟨i, hi, rfl⟩, _, ⟨j, hj, rfl⟩, _, ⟨k, hk, rfl⟩, rfl⟩
      exact ⟨i, hi, j, hj, k, hk, rfl⟩
    · rintro ⟨i, hi, j, hj, k, hk, rfl⟩
      exact ⟨_, ⟨i, hi, rfl⟩, _, ⟨j, hj, rfl⟩, _, ⟨k, hk, rfl⟩, rfl⟩
  refine ⟨by rw [odfAxis_length, c1], by rw [odfAxis_length, c2], by rw [odfAxis_length, c3],
    by rw [odfGrid_length, c1, c2, c3]; ring, hmem, ?_⟩
  intro A hA
  obtain ⟨i, hi, j, hj, k, hk, rfl⟩ := (hmem A).mp hA
  have hdle : d ≤ Real.pi / 2 := by
    rw [h4, div_le_iff₀ (by positivity)]; nlinarith
  rw [binVolume_eq]
  simp only
  apply mul_pos (mul_pos _ _)
  · linarith
  · rw [sub_pos]
    exact sinSqInt_lt (by linarith) (by linarith)
  · have hj' : (j : ℝ) + 1 ≤ 2 * N := by exact_mod_cast hj
    have h2d : (2 * N : ℝ) * d = Real.pi := by rw [h4]; field_simp
    have hcos : Real.cos (1 / 10 ^ 8 + ((j : ℝ) + 1 / 2) * d - d / 2) - Real.cos (1 / 10 ^ 8 + ((j : ℝ) + 1 / 2) * d + d / 2) =
        2 * Real.sin (1 / 10 ^ 8 + ((j : ℝ) + 1 / 2) * d) * Real.sin (d / 2) := by
      generalize 1 / 10 ^ 8 + ((j : ℝ) + 1 / 2) * d = A2
      rw [Real.cos_sub, Real.cos_add]; ring
    have s1 : 0 < Real.sin (1 / 10 ^ 8 + ((j : ℝ) + 1 / 2) * d) := by
      apply Real.sin_pos_of_pos_of_lt_pi
      · positivity
      · have : ((j : ℝ) + 1) * d ≤ Real.pi := by rw [← h2d]; exact mul_le_mul_of_nonneg_right hj' hd0.le
        have he' : odfEps = 1 / 10 ^ 8 := rfl
        nlinarith
    have s2 : 0 < Real.sin (d / 2) := Real.sin_pos_of_pos_of_lt_pi (by positivity) (by linarith)
    have := mul_pos (mul_pos (by norm_num : (0 : ℝ) < 2) s1) s2
    linarith

theorem mapM_ok_iff {α β : Type} (f : α → Except PyErr β) (l : List α) (r : List β) :
    l.mapM f = .ok r ↔ List.Forall₂ (fun a b => f a = .ok b) l r := by
  induction l generalizing r with
  | nil =>
    simp only [List.mapM_nil, pure, Except.pure]
    constructor
    · intro h; cases h; exact .nil
    · intro h; cases h; rfl
  | cons a l ih =>
    simp only [List.mapM_cons, bind, Except.bind, pure, Except.pure]
    constructor
    · intro h
      split at h
      · cases h
      · rename_i b hb
        split at h
        · cases h
        · rename_i bs hbs
          cases h
          exact .cons hb ((ih _).mp hbs)
    · intro h
      cases h with
      | cons hb hbs => rw [hb]; simp only; rw [(ih _).mpr hbs]

theorem sampleOne_spec {odf : V3 → Quat → ℝ} {d : ℝ} {x : V3} {dr : Draw} {M : M3} (h : sampleOne odf d x dr = .ok M) :
    ∃ A, (odfGrid d)[dr.index]? = some A ∧
      M = quatToMatrix (alphaToQuat (A.1 + d * (dr.u1 - 1 / 2)) (A.2.1 + d * (dr.u2 - 1 / 2)) (A.2.2 + d * (dr.u3 - 1 / 2))) := by
  unfold sampleOne at h
  simp only at h
  split_ifs at h
  split at h
  · cases h
  · rename_i A hA
    exact ⟨A, hA, by cases h; rfl⟩

/-- C48 (sampled orientations): whenever `_sample_ODF` returns, it returns one matrix per coordinate, each of them a proper
rotation, namely the rotation of a unit quaternion whose three angles lie within half a bin of the centre of the drawn bin. -/
theorem C48_orientations (odf : V3 → Quat → ℝ) (sep : ℝ) (coords : List V3) (draws : ℕ → Draw) (Ms : List M3)
    (hu : ∀ i, (0 ≤ (draws i).u1 ∧ (draws i).u1 < 1) ∧ (0 ≤ (draws i).u2 ∧ (draws i).u2 < 1) ∧ 0 ≤ (draws i).u3 ∧ (draws i).u3 < 1)
    (h0 : 0 < sep) (h1 : sep ≤ Real.pi)
    (h : sampleODF odf sep coords draws = .ok Ms) :
    Ms.length = coords.length ∧
    ∀ (i : ℕ) (M : M3), Ms[i]? = some M → IsRot M ∧ ∃ A ∈ odfGrid (odfStep sep), (odfGrid (odfStep sep))[(draws i).index]? = some A ∧
      ∃ a1 a2 a3 : ℝ, |a1 - A.1| ≤ odfStep sep / 2 ∧ |a2 - A.2.1| ≤ odfStep sep / 2 ∧ |a3 - A.2.2| ≤ odfStep sep / 2 ∧
        (let q := alphaToQuat a1 a2 a3; q.x ^ 2 + q.y ^ 2 + q.z ^ 2 + q.w ^ 2 = 1 ∧ ∀ v, M.mulVec v = Spec.quatRotate q v) := by
  unfold sampleODF at h
  split_ifs at h with g1 g2
  simp only at h
  split_ifs at h with g2
  rw [mapM_ok_iff] at h
  have hlen := h.length_eq
  rw [List.length_zipIdx] at hlen
  have hd : 0 ≤ odfStep sep := by
    obtain ⟨N, hN, -, -, -, h4⟩ := odfBins_pos h0 h1
    rw [h4]; have := Real.pi_pos; positivity
  refine ⟨hlen.symm, ?_⟩
  intro i M hM
  obtain ⟨hi, rfl⟩ := List.getElem?_eq_some_iff.mp hM
  have hi' : i < coords.zipIdx.length := by rw [List.length_zipIdx, hlen]; exact hi
  have hf := (List.forall₂_iff_get.mp h).2 i hi' hi
  simp only [List.get_eq_getElem, List.getElem_zipIdx, Nat.zero_add] at hf
  obtain ⟨A, hA, hM'⟩ := sampleOne_spec hf
  rw [hM']
  obtain ⟨⟨u1, u1'⟩, ⟨u2, u2'⟩, u3, u3'⟩ := hu i
  have bd : ∀ a u : ℝ, 0 ≤ u → u < 1 → |a + odfStep sep * (u - 1 / 2) - a| ≤ odfStep sep / 2 := by
    intro a u h1 h2
    rw [add_sub_cancel_left, abs_mul, abs_of_nonneg hd]
    have : |u - 1 / 2| ≤ 1 / 2 := by rw [abs_le]; constructor <;> linarith
    nlinarith
  exact ⟨quatToMatrix_isRot _ (alphaToQuat_unit _ _ _), A, List.mem_of_getElem? hA, hA, _, _, _, bd _ _ u1 u1', bd _ _ u2 u2', bd _ _ u3 u3',
    alphaToQuat_unit _ _ _, fun v => quatToMatrix_mulVec _ (alphaToQuat_unit _ _ _) v⟩

/-- C48 (success): for every separation in `(4e-8, π]` and every nonnegative density whose bin sum is 1 within 5% at every
coordinate, sampling succeeds for every sequence of draws. -/
theorem C48_succeeds (odf : V3 → Quat → ℝ) (sep : ℝ) (coords : List V3) (draws : ℕ → Draw)
    (h0 : 4 / 10 ^ 8 < sep) (h1 : sep ≤ Real.pi) (hidx : ∀ i, (draws i).index < 8 * ⌊Real.pi / sep⌋₊ ^ 3)
    (hpos : ∀ x ∈ coords, ∀ q, 0 ≤ odf x q)
    (hnorm : ∀ x ∈ coords, |((odfGrid (odfStep sep)).map fun A => binVolume (odfStep sep) A * odf x (alphaToQuat A.1 A.2.1 A.2.2)).sum - 1| < 5 / 100) :
    ∃ Ms, sampleODF odf sep coords draws = .ok Ms := by
  have hs : 0 < sep := lt_trans (by norm_num) h0
  obtain ⟨-, -, -, hlen, -, hvol⟩ := C48_bins sep h0 h1
  obtain ⟨N, hN, hN1, -⟩ := odfBins_pos hs h1
  obtain ⟨_, _, _, _, hc⟩ := C48_volume sep hs h1
  unfold sampleODF
  rw [if_neg (by push Not; exact ⟨hs.ne', by rw [hN1]; exact_mod_cast hN.ne'⟩)]
  simp only
  rw [if_pos hc]
  have key : ∀ x ∈ coords, ∀ i, ∃ M, sampleOne odf (odfStep sep) x (draws i) = .ok M := by
    intro x hx i
    have hn := hnorm x hx
    unfold sampleOne
    simp only
    rw [if_pos hn]
    set p := (odfGrid (odfStep sep)).map fun A => binVolume (odfStep sep) A * odf x (alphaToQuat A.1 A.2.1 A.2.2) with hp
    have hsum : 0 < p.sum := by rw [abs_lt] at hn; linarith [hn.1]
    have hge : ∀ v ∈ p, 0 ≤ v := by
      intro v hv
      rw [hp, List.mem_map] at hv
      obtain ⟨A, hA, rfl⟩ := hv
      exact mul_nonneg (hvol A hA).le (hpos x hx _)
    rw [if_neg]
    · have : (draws i).index < (odfGrid (odfStep sep)).length := by rw [hlen]; exact hidx i
      rw [List.getElem?_eq_getElem this]
      exact ⟨_, rfl⟩
    · push Not
      constructor
      · intro v hv
        obtain ⟨w, hw, rfl⟩ := List.mem_map.mp hv
        exact div_nonneg (hge w hw) hsum.le
      · have : (p.map fun v => v / p.sum).sum = p.sum / p.sum := by
          simp only [div_eq_mul_inv]
          rw [List.sum_map_mul_right, List.map_id']
        rw [this, div_self hsum.ne']
  have gen : ∀ l : List (V3 × ℕ), (∀ xi ∈ l, xi.1 ∈ coords) →
      ∃ Ms, l.mapM (fun xi => sampleOne odf (odfStep sep) xi.1 (draws xi.2)) = .ok Ms := by
    intro l
    induction l with
    | nil => intro _; exact ⟨[], rfl⟩
    | cons a l ih =>
      intro hl
      obtain ⟨M, hM⟩ := key a.1 (hl a (by simp)) a.2
      obtain ⟨Ms, hMs⟩ := ih (fun b hb => hl b (by simp [hb]))
      exact ⟨M :: Ms, by simp [List.mapM_cons, hM, hMs, bind, Except.bind, pure, Except.pure]⟩
  apply gen
  intro xi hxi
  obtain ⟨x, i⟩ := xi
  have := List.mem_zipIdx hxi
  simp only at this ⊢
  rw [this.2.2]
  exact List.getElem_mem _

/-- the uniform density `1/π²` meets the hypotheses for every separation: sampling succeeds -/
theorem C48_uniform (sep : ℝ) (coords : List V3) (draws : ℕ → Draw) (h0 : 4 / 10 ^ 8 < sep) (h1 : sep ≤ Real.pi)
    (hidx : ∀ i, (draws i).index < 8 * ⌊Real.pi / sep⌋₊ ^ 3) :
    ∃ Ms, sampleODF (fun _ _ => 1 / Real.pi ^ 2) sep coords draws = .ok Ms := by
  have hpi := Real.pi_pos
  have hpi3 := Real.pi_gt_three
  refine C48_succeeds _ sep coords draws h0 h1 hidx (fun _ _ _ => by positivity) ?_
  intro x _
  obtain ⟨_, _, _, _, hc⟩ := C48_volume sep (lt_trans (by norm_num) h0) h1
  rw [List.sum_map_mul_right]
  have e : ((odfGrid (odfStep sep)).map (binVolume (odfStep sep))).sum * (1 / Real.pi ^ 2) - 1 =
      (((odfGrid (odfStep sep)).map (binVolume (odfStep sep))).sum - Real.pi ^ 2) / Real.pi ^ 2 := by field_simp
  rw [e, abs_div, abs_of_pos (by positivity : (0:ℝ) < Real.pi ^ 2), div_lt_iff₀ (by positivity)]
  nlinarith

/-- a concrete call: two coordinates, bins of at most one radian, the first bin drawn -/
example : ∃ Ms, sampleODF (fun _ _ => 1 / Real.pi ^ 2) 1 [0, ⟨1, 2, 3⟩] (fun _ => ⟨0, 1/2, 1/2, 1/2⟩) = .ok Ms :=
  C48_uniform 1 _ _ (by norm_num) (by linarith [Real.pi_gt_three]) (by
    intro _
    have : 0 < ⌊Real.pi / 1⌋₊ := Nat.floor_pos.mpr (by have := Real.pi_gt_three; rw [div_one]; linarith)
    simp only; positivity)

end XRD
