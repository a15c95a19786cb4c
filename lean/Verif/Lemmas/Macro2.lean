import Verif.Lemmas.Macro
import Verif.Props.Detector2
import Mathlib.Algebra.BigOperators.Field

/-! Totals of macro contributions. -/

namespace XRD
open V3 M3 Fl Spec
open scoped Classical

theorem sum_box (h a n : ℕ) (hn : a + n ≤ h) (g : ℕ → ℝ) :
    ∑ i ∈ Finset.range h, (if a ≤ i ∧ i < a + n then g (i - a) else 0) = ∑ i ∈ Finset.range n, g i := by
  rw [← Finset.sum_filter]
  symm
  apply Finset.sum_bij (fun i _ => a + i)
  · intro i hi
    simp only [Finset.mem_range] at hi
    simp only [Finset.mem_filter, Finset.mem_range]; omega
  · intro i _ j _ h; omega
  · intro i hi
    simp only [Finset.mem_filter, Finset.mem_range] at hi
    exact ⟨i - a, by simp; omega, by omega⟩
  · intro i _
    congr 1; omega

theorem minL_mem (a : ℝ) (l : List ℝ) : Detector.minL a l ∈ a :: l := by
  unfold Detector.minL
  induction l generalizing a with
  | nil => simp
  | cons b l ih =>
    rw [List.foldl_cons]
    have := ih (min a b)
    rcases List.mem_cons.mp this with h | h
    · rw [h]; rcases min_choice a b with h | h <;> rw [h] <;> simp
    · simp [h]

theorem maxL_mem (a : ℝ) (l : List ℝ) : Detector.maxL a l ∈ a :: l := by
  unfold Detector.maxL
  induction l generalizing a with
  | nil => simp
  | cons b l ih =>
    rw [List.foldl_cons]
    have := ih (max a b)
    rcases List.mem_cons.mp this with h | h
    · rw [h]; rcases max_choice a b with h | h <;> rw [h] <;> simp
    · simp [h]

theorem minL_le_maxL (a : ℝ) (l : List ℝ) : Detector.minL a l ≤ Detector.maxL a l := by
  have h1 : ∀ (l : List ℝ) (a : ℝ), l.foldl min a ≤ a := by
    intro l; induction l with
    | nil => intro a; exact le_rfl
    | cons b l ih => intro a; exact (ih _).trans (min_le_left _ _)
  have h2 : ∀ (l : List ℝ) (a : ℝ), a ≤ l.foldl max a := by
    intro l; induction l with
    | nil => intro a; exact le_rfl
    | cons b l ih => intro a; exact (le_max_left _ _).trans (ih _)
  exact (h1 l a).trans (h2 l a)

/-- the projection of a hull stays `B` pixels away from the border -/
def Spec.ProjectsInside (D : Detector) (points : List V3) (k : V3) (B : ℕ) : Prop :=
  points ≠ [] ∧ ∀ v ∈ points, ∃ zd yd : ℝ, (D.intersect k v).1 = fin zd ∧ (D.intersect k v).2.1 = fin yd ∧
    B ≤ zd / D.pz ∧ zd / D.pz + B + 1 ≤ D.zmax / D.pz ∧ B ≤ yd / D.py ∧ yd / D.py + B + 1 ≤ D.ymax / D.py

theorem box_axis {p M lo hi : ℝ} (hp : 0 < p) {B : ℕ} (h1 : B ≤ lo / p) (h2 : hi / p + B + 1 ≤ M / p) (hle : lo ≤ hi) :
    max lo 0 = lo ∧ min hi M = hi ∧ ∃ a n : ℕ, Detector.pyInt (lo / p) = a ∧ min (Detector.pyInt (hi / p) + 1) (Detector.pyInt (M / p)) = ((a + n : ℕ) : ℤ) ∧
      1 ≤ n ∧ B ≤ a ∧ a + n + B ≤ ⌈M / p⌉₊ ∧ ⌊lo / p⌋ = a ∧ ((a + n : ℕ) : ℤ) = ⌊hi / p⌋ + 1 := by
  have hB : (0:ℝ) ≤ B := by positivity
  have hlo : 0 ≤ lo / p := hB.trans h1
  have hlo0 : 0 ≤ lo := by
    by_contra hc; push Not at hc
    have := div_neg_of_neg_of_pos hc hp; linarith
  have hlh : lo / p ≤ hi / p := by gcongr
  have hM : hi ≤ M := by
    have : hi / p ≤ M / p := by linarith
    exact (div_le_div_iff_of_pos_right hp).mp this
  have hfl : ⌊hi / p⌋ + B + 1 ≤ ⌊M / p⌋ := by
    rw [Int.le_floor]; push_cast
    have := Int.floor_le (hi / p)
    linarith
  have hfl0 : 0 ≤ ⌊lo / p⌋ := Int.floor_nonneg.mpr hlo
  have hflB : (B:ℤ) ≤ ⌊lo / p⌋ := by rw [Int.le_floor]; exact_mod_cast h1
  have hfm : ⌊lo / p⌋ ≤ ⌊hi / p⌋ := Int.floor_mono hlh
  have hcM : ⌊M / p⌋ ≤ (⌈M / p⌉₊ : ℤ) := by
    have h3 := Nat.le_ceil (M / p)
    have h4 := Int.floor_le (M / p)
    exact_mod_cast h4.trans h3
  refine ⟨max_eq_left hlo0, min_eq_left hM, ⌊lo / p⌋.toNat, (⌊hi / p⌋ + 1 - ⌊lo / p⌋).toNat, ?_, ?_, ?_, ?_, ?_, ?_, ?_⟩
  · unfold Detector.pyInt; rw [if_pos hlo]; omega
  · unfold Detector.pyInt; rw [if_pos (hlo.trans hlh), if_pos (by linarith)]; rw [min_eq_left (by omega)]; omega
  all_goals omega

theorem inside_box {D : Detector} (hpz : 0 < D.pz) (hpy : 0 < D.py) {points : List V3} {k : V3} {B : ℕ} (h : ProjectsInside D points k B) :
    ∃ a n c m : ℕ, D.boundingBox points k = some ((a:ℤ), ((a + n : ℕ):ℤ), (c:ℤ), ((c + m : ℕ):ℤ)) ∧ 1 ≤ n ∧ 1 ≤ m ∧
      B ≤ a ∧ a + n + B ≤ D.nz ∧ B ≤ c ∧ c + m + B ≤ D.ny := by
  obtain ⟨hne, hv⟩ := h
  have hz : ∀ x ∈ Detector.finites ((points.map fun v => D.intersect k v).map (·.1)), (B:ℝ) ≤ x / D.pz ∧ x / D.pz + B + 1 ≤ D.zmax / D.pz := by
    intro x hx
    rw [mem_finites] at hx
    obtain ⟨q, hq, h1⟩ := List.mem_map.mp hx
    obtain ⟨v, hvm, rfl⟩ := List.mem_map.mp hq
    obtain ⟨zd, yd, e1, e2, i1, i2, i3, i4⟩ := hv v hvm
    rw [e1] at h1
    cases h1
    exact ⟨i1, i2⟩
  have hy : ∀ x ∈ Detector.finites ((points.map fun v => D.intersect k v).map (·.2.1)), (B:ℝ) ≤ x / D.py ∧ x / D.py + B + 1 ≤ D.ymax / D.py := by
    intro x hx
    rw [mem_finites] at hx
    obtain ⟨q, hq, h1⟩ := List.mem_map.mp hx
    obtain ⟨v, hvm, rfl⟩ := List.mem_map.mp hq
    obtain ⟨zd, yd, e1, e2, i1, i2, i3, i4⟩ := hv v hvm
    rw [e2] at h1
    cases h1
    exact ⟨i3, i4⟩
  obtain ⟨v, hvm⟩ := List.exists_mem_of_ne_nil _ hne
  obtain ⟨zd, yd, e1, e2, -⟩ := hv v hvm
  have hmz : zd ∈ Detector.finites ((points.map fun v => D.intersect k v).map (·.1)) := by
    rw [mem_finites]; exact List.mem_map.mpr ⟨D.intersect k v, List.mem_map.mpr ⟨v, hvm, rfl⟩, e1⟩
  have hmy : yd ∈ Detector.finites ((points.map fun v => D.intersect k v).map (·.2.1)) := by
    rw [mem_finites]; exact List.mem_map.mpr ⟨D.intersect k v, List.mem_map.mpr ⟨v, hvm, rfl⟩, e2⟩
  unfold Detector.boundingBox
  simp only
  cases hzs : Detector.finites ((points.map fun v => D.intersect k v).map (·.1)) with
  | nil => rw [hzs] at hmz; simp at hmz
  | cons z zs =>
    cases hys : Detector.finites ((points.map fun v => D.intersect k v).map (·.2.1)) with
    | nil => rw [hys] at hmy; simp at hmy
    | cons y ys =>
      rw [hzs] at hz
      rw [hys] at hy
      simp only
      obtain ⟨z1, z2, a, n, z3, z4, z5, z6, z7, -⟩ := box_axis hpz (hz _ (minL_mem z zs)).1 (hz _ (maxL_mem z zs)).2 (minL_le_maxL z zs)
      obtain ⟨y1, y2, c, m, y3, y4, y5, y6, y7, -⟩ := box_axis hpy (hy _ (minL_mem y ys)).1 (hy _ (maxL_mem y ys)).2 (minL_le_maxL y ys)
      rw [z1, z2, y1, y2, if_neg (by push Not; exact ⟨minL_le_maxL _ _, minL_le_maxL _ _⟩)]
      unfold Detector.pixelIndex
      simp only [z3, z4, y3, y4]
      exact ⟨a, n, c, m, rfl, z5, y5, z6, z7, y6, y7⟩

/-- a projection that does not fail distributes exactly the volume of the hull over its box -/
theorem projectHull_total {D : Detector} {env : RenderEnv} {hull : Hull} {k : V3} {a n c m : ℕ} (hn : 1 ≤ n) (hm : 1 ≤ m) {pr : Frame}
    (h : D.projectHull env hull k ((a:ℤ), ((a + n : ℕ):ℤ), (c:ℤ), ((c + m : ℕ):ℤ)) = .ok (some pr)) :
    ∑ i ∈ Finset.range n, ∑ j ∈ Finset.range m, pr i j = hull.volume := by
  have e1 : ((((a + n : ℕ):ℤ) - (a:ℤ)).toNat) = n := by omega
  have e2 : ((((c + m : ℕ):ℤ) - (c:ℤ)).toNat) = m := by omega
  have key : ∀ acc : Frame, ∀ T : ℝ, T = ∑ i ∈ Finset.range n, ∑ j ∈ Finset.range m, acc i j → T ≠ 0 →
      ∑ i ∈ Finset.range n, ∑ j ∈ Finset.range m, acc i j / T * hull.volume = hull.volume := by
    intro acc T hT h0
    simp only [← Finset.sum_mul, ← Finset.sum_div]
    rw [← hT, div_self h0, _root_.one_mul]
  have hnm : n * m ≠ 0 := by positivity
  unfold Detector.projectHull at h
  simp only [e1, e2] at h
  by_cases h1 : n * m = 1
  · have : n = 1 ∧ m = 1 := by simpa using h1
    obtain ⟨rfl, rfl⟩ := this
    simp only [_root_.mul_one, if_true] at h
    cases h
    simp
  rw [if_neg h1] at h
  by_cases h2 : n * m ≤ 4
  · rw [if_pos h2] at h
    split_ifs at h with h3 h4
    · cases h
    simp only [Except.ok.injEq, Option.some.injEq] at h
    subst h
    refine key _ _ rfl ?_
    intro h0; exact h4 ⟨h0, hnm⟩
  · rw [if_neg h2] at h
    split_ifs at h with h4
    · cases h
    cases h
    exact key _ _ rfl h4

/-- total of one contribution that lies inside the frame -/
theorem macroVal_total {D : Detector} {env : RenderEnv} {b : Beam} {mesh : TetraMesh} {m : Motion} {row : List Fl} {H : Hull} {a n c q : ℕ}
    (hH : env.hull b (Detector.movedVertices mesh m row) = some H)
    (hb : D.boundingBox H.points ⟨rcol row 13, rcol row 14, rcol row 15⟩ = some ((a:ℤ), ((a + n : ℕ):ℤ), (c:ℤ), ((c + q : ℕ):ℤ)))
    (hn : 1 ≤ n) (hq : 1 ≤ q) (ha : a + n ≤ D.nz) (hc : c + q ≤ D.ny) {f : Frame} (hok : macroAdd D env b mesh m row = .ok (some f)) :
    (∀ i j, macroVal D env b mesh m row i j ≠ 0 → a ≤ i ∧ i < a + n ∧ c ≤ j ∧ j < c + q) ∧
    total2 D.nz D.ny (macroVal D env b mesh m row) = D.pz * D.py * (rcol row 29 * H.volume) := by
  have hv : macroVal D env b mesh m row = f := by unfold macroVal; rw [hok]
  rw [hv]
  unfold macroAdd Detector.macroPeak at hok
  rw [hH] at hok
  simp only [hb] at hok
  cases hp : D.projectHull env H ⟨rcol row 13, rcol row 14, rcol row 15⟩ ((a:ℤ), ((a + n : ℕ):ℤ), (c:ℤ), ((c + q : ℕ):ℤ)) with
  | error e => rw [hp] at hok; cases hok
  | ok pr =>
    rw [hp] at hok
    cases pr with
    | none => cases hok
    | some pr =>
      have ht := projectHull_total hn hq hp
      simp only [Except.ok.injEq, Option.some.injEq, Int.toNat_natCast] at hok
      have hf : ∀ i j, f i j = if a ≤ i ∧ i < a + n then (if c ≤ j ∧ j < c + q then rcol row 29 * (pr (i - a) (j - c) * D.pz * D.py) else 0) else 0 := by
        intro i j
        rw [← hok]
        simp only
        split_ifs with h1 h2 h3 h4 h5 h6
        · ring
        · exact absurd ⟨by omega, by omega⟩ h3
        · exact absurd ⟨by omega, by omega⟩ h2
        · exact absurd ⟨by omega, by omega, by omega, by omega⟩ h1
        · rfl
        · rfl
      constructor
      · intro i j hne
        rw [hf] at hne
        split_ifs at hne with h1 h2
        · exact ⟨h1.1, h1.2, h2.1, h2.2⟩
        · exact absurd rfl hne
        · exact absurd rfl hne
      · unfold total2
        simp only [hf]
        have e : ∀ i ∈ Finset.range D.nz, ∑ j ∈ Finset.range D.ny, (if a ≤ i ∧ i < a + n then
            (if c ≤ j ∧ j < c + q then rcol row 29 * (pr (i - a) (j - c) * D.pz * D.py) else 0) else 0) =
            if a ≤ i ∧ i < a + n then ∑ j ∈ Finset.range q, rcol row 29 * (pr (i - a) j * D.pz * D.py) else 0 := by
          intro i _
          split_ifs with h1
          · exact sum_box D.ny c q hc fun j => rcol row 29 * (pr (i - a) j * D.pz * D.py)
          · simp
        rw [Finset.sum_congr rfl e, sum_box D.nz a n ha fun i => ∑ j ∈ Finset.range q, rcol row 29 * (pr i j * D.pz * D.py), ← ht]
        simp only [Finset.mul_sum]
        apply Finset.sum_congr rfl; intro i _
        apply Finset.sum_congr rfl; intro j _
        ring

/-- the point spread keeps the total of a frame that vanishes near the border -/
theorem total2_conv_inside {h w r : ℕ} {k : Kernel} (hs : k.size = 2 * r + 1) (h1 : k.total = 1) {t : Frame}
    (ht : ∀ i j, t i j ≠ 0 → r ≤ i ∧ i + r < h ∧ r ≤ j ∧ j + r < w) : total2 h w (conv2d h w k t) = total2 h w t := by
  rw [total2_conv2d]
  unfold total2
  apply Finset.sum_congr rfl; intro i _
  apply Finset.sum_congr rfl; intro j _
  by_cases h0 : t i j = 0
  · rw [h0]; simp
  · obtain ⟨a, b, c, d⟩ := ht i j h0
    rw [convShare_eq hs a b c d, h1, _root_.mul_one]

theorem total2_list_sum {α : Type} (h w : ℕ) (l : List α) (g : α → Frame) :
    total2 h w (fun i j => (l.map fun a => g a i j).sum) = (l.map fun a => total2 h w (g a)).sum := by
  induction l with
  | nil => simp [total2]
  | cons a l ih =>
    simp only [List.map_cons, List.sum_cons]
    rw [← ih]
    unfold total2
    simp only [Finset.sum_add_distrib]

end XRD
