import Verif.Model.Sample
import Verif.Props.Intersect
import Verif.Props.MacroSafe

/-! Property C71: random samples of a hull. -/

namespace XRD
open V3 M3 Spec
open scoped Classical

/-- what the random generator returns: indices of simplices, and four non-negative numbers, not all zero, per point -/
def Spec.Drawn (simplices : List (ℕ × ℕ × ℕ)) (idx : List ℕ) (w : List (ℝ × ℝ × ℝ × ℝ)) : Prop :=
  (∀ i ∈ idx, i < simplices.length) ∧
  ∀ q ∈ w, 0 ≤ q.1 ∧ 0 ≤ q.2.1 ∧ 0 ≤ q.2.2.1 ∧ 0 ≤ q.2.2.2 ∧ 0 < q.1 + q.2.1 + q.2.2.1 + q.2.2.2

/-- simplices refer to points -/
def Spec.Triangles (points : List V3) (simplices : List (ℕ × ℕ × ℕ)) : Prop :=
  ∀ t ∈ simplices, t.1 < points.length ∧ t.2.1 < points.length ∧ t.2.2 < points.length

theorem mean_in_hull {points : List V3} (hne : points ≠ []) : meanV points ∈ convexHull ℝ {v : V3 | v ∈ points} := by
  have key : ∀ (l : List V3) (S : Set V3), Convex ℝ S → (∀ v ∈ l, v ∈ S) → ∀ (c : V3) (k : ℝ), 0 < k → c ∈ S →
      (1 / (k + l.length)) • (k • c + l.sum) ∈ S := by
    intro l S hS
    induction l with
    | nil =>
      intro _ c k hk hc
      simp only [List.length_nil, Nat.cast_zero, add_zero, List.sum_nil]
      rw [smul_smul, one_div, inv_mul_cancel₀ hk.ne', one_smul]; exact hc
    | cons v l ih =>
      intro hl c k hk hc
      have hv := hl v List.mem_cons_self
      have hk1 : 0 < k + 1 := by linarith
      have hc' : (k / (k + 1)) • c + (1 / (k + 1)) • v ∈ S := hS hc hv (by positivity) (by positivity) (by field_simp)
      have := ih (fun u hu => hl u (List.mem_cons_of_mem _ hu)) _ (k + 1) hk1 hc'
      convert this using 1
      rw [List.sum_cons, List.length_cons, smul_add (k + 1), smul_smul, smul_smul]
      have e1 : (k + 1) * (k / (k + 1)) = k := by field_simp
      have e2 : (k + 1) * (1 / (k + 1)) = 1 := by field_simp
      rw [e1, e2, one_smul]
      push_cast
      rw [show k + ((l.length : ℝ) + 1) = k + 1 + l.length by ring, ← add_assoc (k • c)]
  obtain ⟨v, l, rfl⟩ := List.exists_cons_of_ne_nil hne
  have := key l (convexHull ℝ {u : V3 | u ∈ v :: l}) (convex_convexHull ℝ _) (fun u hu => subset_convexHull ℝ _ (List.mem_cons_of_mem _ hu))
    v 1 one_pos (subset_convexHull ℝ _ List.mem_cons_self)
  unfold meanV
  rw [List.sum_cons, List.length_cons]
  rw [one_smul] at this
  push_cast
  rw [add_comm (l.length : ℝ) 1]
  exact this

theorem getD_in_hull {points : List V3} {i : ℕ} (h : i < points.length) : points.getD i 0 ∈ convexHull ℝ {v : V3 | v ∈ points} := by
  apply subset_convexHull
  simp only [Set.mem_setOf_eq]
  rw [List.getD_eq_getElem _ _ h]
  exact List.getElem_mem h

/-- C71: every sample lies in the convex hull of the points, for all values of the draws. -/
theorem C71_samples_inside (points : List V3) (simplices : List (ℕ × ℕ × ℕ)) (ht : Triangles points simplices) (idx : List ℕ)
    (w : List (ℝ × ℝ × ℝ × ℝ)) (hd : Drawn simplices idx w) :
    ∀ s ∈ sampleHull points simplices idx w, s ∈ convexHull ℝ {v : V3 | v ∈ points} := by
  intro s hs
  obtain ⟨⟨i, q⟩, hp, rfl⟩ := List.mem_map.mp hs
  have hi := hd.1 i (List.of_mem_zip hp).1
  obtain ⟨h0, h1, h2, h3, hT⟩ := hd.2 q (List.of_mem_zip hp).2
  have htet : (hullTets points simplices).getD i (0, 0, 0, 0) =
      (meanV points, points.getD simplices[i].1 0, points.getD simplices[i].2.1 0, points.getD simplices[i].2.2 0) := by
    unfold hullTets
    rw [List.getD_eq_getElem _ _ (by simpa using hi), List.getElem_map]
  obtain ⟨t1, t2, t3⟩ := ht _ (List.getElem_mem hi)
  have hne : points ≠ [] := by rintro rfl; simp at t1
  simp only [htet]
  have := (convex_convexHull ℝ {v : V3 | v ∈ points}).sum_mem (t := Finset.univ)
    (w := ![q.1 / (q.1 + q.2.1 + q.2.2.1 + q.2.2.2), q.2.1 / (q.1 + q.2.1 + q.2.2.1 + q.2.2.2), q.2.2.1 / (q.1 + q.2.1 + q.2.2.1 + q.2.2.2),
      q.2.2.2 / (q.1 + q.2.1 + q.2.2.1 + q.2.2.2)])
    (z := ![meanV points, points.getD simplices[i].1 0, points.getD simplices[i].2.1 0, points.getD simplices[i].2.2 0])
    (by intro j _; fin_cases j <;> simp <;> positivity)
    (by simp only [Fin.sum_univ_four, Matrix.cons_val]; field_simp)
    (by
      intro j _
      fin_cases j
      · exact mean_in_hull hne
      · exact getD_in_hull t1
      · exact getD_in_hull t2
      · exact getD_in_hull t3)
  rw [Fin.sum_univ_four] at this
  simpa using this

/-- C71: the number of samples. -/
theorem C71_sample_count (points : List V3) (simplices : List (ℕ × ℕ × ℕ)) (idx : List ℕ) (w : List (ℝ × ℝ × ℝ × ℝ)) (n : ℕ)
    (hi : idx.length = n) (hw : w.length = n) : (sampleHull points simplices idx w).length = n := by
  unfold sampleHull
  rw [List.length_map, List.length_zip, hi, hw, min_self]

/-- C71: a sample is strictly inside every facet of the hull when the draws give the centre a positive weight. -/
theorem C71_strictly_inside (H : Hull) (hH : IsHull H H.points) (simplices : List (ℕ × ℕ × ℕ)) (ht : Triangles H.points simplices) (idx : List ℕ)
    (w : List (ℝ × ℝ × ℝ × ℝ)) (hd : Drawn simplices idx w) (hpos : ∀ q ∈ w, 0 < q.1) :
    ∀ s ∈ sampleHull H.points simplices idx w, ∀ e ∈ H.equations, e.n.dot s + e.d < 0 := by
  intro s hs e he
  obtain ⟨⟨i, q⟩, hp, rfl⟩ := List.mem_map.mp hs
  have hi := hd.1 i (List.of_mem_zip hp).1
  obtain ⟨h0, h1, h2, h3, hT⟩ := hd.2 q (List.of_mem_zip hp).2
  have hq := hpos q (List.of_mem_zip hp).2
  have htet : (hullTets H.points simplices).getD i (0, 0, 0, 0) =
      (meanV H.points, H.points.getD simplices[i].1 0, H.points.getD simplices[i].2.1 0, H.points.getD simplices[i].2.2 0) := by
    unfold hullTets
    rw [List.getD_eq_getElem _ _ (by simpa using hi), List.getElem_map]
  obtain ⟨t1, t2, t3⟩ := ht _ (List.getElem_mem hi)
  simp only [htet]
  have v : ∀ j, j < H.points.length → e.n.dot (H.points.getD j 0) + e.d ≤ 0 := by
    intro j hj
    rw [List.getD_eq_getElem _ _ hj]
    exact hull_vertex hH he (List.getElem_mem hj)
  have b0 := hull_mean hH e he
  have b1 := v _ t1
  have b2 := v _ t2
  have b3 := v _ t3
  set T := q.1 + q.2.1 + q.2.2.1 + q.2.2.2 with hTd
  have hsum : e.d = (q.1 / T + q.2.1 / T + q.2.2.1 / T + q.2.2.2 / T) * e.d := by
    rw [← add_div, ← add_div, ← add_div, ← hTd, div_self hT.ne', _root_.one_mul]
  have key : ∀ (a b c d : V3), e.n.dot ((q.1 / T) • a + (q.2.1 / T) • b + (q.2.2.1 / T) • c + (q.2.2.2 / T) • d) + e.d =
      q.1 / T * (e.n.dot a + e.d) + q.2.1 / T * (e.n.dot b + e.d) + q.2.2.1 / T * (e.n.dot c + e.d) + q.2.2.2 / T * (e.n.dot d + e.d) := by
    intro a b c d
    have : e.n.dot ((q.1 / T) • a + (q.2.1 / T) • b + (q.2.2.1 / T) • c + (q.2.2.2 / T) • d) =
        q.1 / T * e.n.dot a + q.2.1 / T * e.n.dot b + q.2.2.1 / T * e.n.dot c + q.2.2.2 / T * e.n.dot d := by
      simp only [V3.dot, add_x, add_y, add_z, smul_x, smul_y, smul_z]; ring
    rw [this]
    conv_lhs => rw [hsum]
    ring
  rw [key]
  have w0 : 0 < q.1 / T := by positivity
  have w1 : 0 ≤ q.2.1 / T := by positivity
  have w2 : 0 ≤ q.2.2.1 / T := by positivity
  have w3 : 0 ≤ q.2.2.2 / T := by positivity
  have m0 := mul_neg_of_pos_of_neg w0 b0
  have m1 := mul_nonpos_of_nonneg_of_nonpos w1 b1
  have m2 := mul_nonpos_of_nonneg_of_nonpos w2 b2
  have m3 := mul_nonpos_of_nonneg_of_nonpos w3 b3
  linarith

/-- C71: the probabilities are non-negative and add up to one, for a polyhedron with some volume. -/
theorem C71_probabilities (points : List V3) (simplices : List (ℕ × ℕ × ℕ)) (t : ℕ × ℕ × ℕ) (ht : t ∈ simplices)
    (hv : dot (points.getD t.1 0 - meanV points) (cross (points.getD t.2.1 0 - meanV points) (points.getD t.2.2 0 - meanV points)) ≠ 0) :
    (hullProbs points simplices).length = simplices.length ∧ (∀ p ∈ hullProbs points simplices, 0 ≤ p) ∧ (hullProbs points simplices).sum = 1 := by
  have hnn : ∀ v ∈ hullVols points simplices, 0 ≤ v := by
    intro v hv
    obtain ⟨t, -, rfl⟩ := List.mem_map.mp hv
    positivity
  have hpos : 0 < (hullVols points simplices).sum := by
    have hm : |dot (points.getD t.1 0 - meanV points) (cross (points.getD t.2.1 0 - meanV points) (points.getD t.2.2 0 - meanV points))| / 6 ∈ hullVols points simplices :=
      List.mem_map.mpr ⟨_, List.mem_map.mpr ⟨t, ht, rfl⟩, rfl⟩
    have := List.single_le_sum hnn _ hm
    have : 0 < |dot (points.getD t.1 0 - meanV points) (cross (points.getD t.2.1 0 - meanV points) (points.getD t.2.2 0 - meanV points))| / 6 := by
      have := abs_pos.mpr hv; positivity
    linarith
  refine ⟨by simp [hullProbs, hullVols, hullTets], ?_, ?_⟩
  · intro p hp
    obtain ⟨v, hv, rfl⟩ := List.mem_map.mp hp
    have := hnn v hv; positivity
  · unfold hullProbs
    have : ∀ (l : List ℝ) (c : ℝ), (l.map fun v => v / c).sum = l.sum / c := by
      intro l c
      induction l with
      | nil => simp
      | cons a l ih => simp only [List.map_cons, List.sum_cons, ih]; ring
    rw [this, div_self hpos.ne']

/-- C71: the four parts of a tetrahedron are chosen with equal probability. -/
theorem C71_tetrahedron_equal (a b c d : V3) (h : dot (cross (b - a) (c - a)) (d - a) ≠ 0) :
    hullProbs [a, b, c, d] [(0, 1, 2), (0, 1, 3), (0, 2, 3), (1, 2, 3)] = [1/4, 1/4, 1/4, 1/4] := by
  obtain ⟨V, hV⟩ : ∃ V, V = |dot (cross (b - a) (c - a)) (d - a)| / 24 := ⟨_, rfl⟩
  have hpos : V ≠ 0 := by rw [hV]; have := abs_pos.mpr h; positivity
  have hm : meanV [a, b, c, d] = (1 / 4 : ℝ) • (a + b + c + d) := by
    unfold meanV; simp only [List.length_cons, List.length_nil, List.sum_cons, List.sum_nil]
    norm_num
    ext <;> simp <;> ring
  have key : ∀ (x s : ℝ), s = 1 ∨ s = -1 → 4 * x = s * dot (cross (b - a) (c - a)) (d - a) → |x| / 6 = V := by
    intro x s hs hx
    have : |4 * x| = |dot (cross (b - a) (c - a)) (d - a)| := by
      rw [hx, abs_mul]; rcases hs with rfl | rfl <;> simp
    rw [abs_mul, abs_of_pos (show (0:ℝ) < 4 by norm_num)] at this
    rw [hV, ← this]; ring
  have hvols : hullVols [a, b, c, d] [(0, 1, 2), (0, 1, 3), (0, 2, 3), (1, 2, 3)] = [V, V, V, V] := by
    unfold hullVols hullTets
    rw [hm]
    simp only [List.map_cons, List.map_nil, List.getD_cons_zero, List.getD_cons_succ]
    have e1 := key (dot (a - (1/4 : ℝ) • (a + b + c + d)) (cross (b - (1/4 : ℝ) • (a + b + c + d)) (c - (1/4 : ℝ) • (a + b + c + d)))) (-1) (Or.inr rfl)
      (by simp [V3.dot, V3.cross]; ring)
    have e2 := key (dot (a - (1/4 : ℝ) • (a + b + c + d)) (cross (b - (1/4 : ℝ) • (a + b + c + d)) (d - (1/4 : ℝ) • (a + b + c + d)))) 1 (Or.inl rfl)
      (by simp [V3.dot, V3.cross]; ring)
    have e3 := key (dot (a - (1/4 : ℝ) • (a + b + c + d)) (cross (c - (1/4 : ℝ) • (a + b + c + d)) (d - (1/4 : ℝ) • (a + b + c + d)))) (-1) (Or.inr rfl)
      (by simp [V3.dot, V3.cross]; ring)
    have e4 := key (dot (b - (1/4 : ℝ) • (a + b + c + d)) (cross (c - (1/4 : ℝ) • (a + b + c + d)) (d - (1/4 : ℝ) • (a + b + c + d)))) 1 (Or.inl rfl)
      (by simp [V3.dot, V3.cross]; ring)
    rw [e1, e2, e3, e4]
  unfold hullProbs
  rw [hvols]
  simp only [List.map_cons, List.map_nil, List.sum_cons, List.sum_nil]
  have : V / (V + (V + (V + (V + 0)))) = 1 / 4 := by
    rw [show V + (V + (V + (V + 0))) = 4 * V by ring]; field_simp
  rw [this]

/-- the unit corner tetrahedron and its four facets -/
def unitCorner : List V3 := [⟨0, 0, 0⟩, ⟨1, 0, 0⟩, ⟨0, 1, 0⟩, ⟨0, 0, 1⟩]
def cornerTris : List (ℕ × ℕ × ℕ) := [(0, 1, 2), (0, 1, 3), (0, 2, 3), (1, 2, 3)]

/-- the hypotheses of `C71_samples_inside`, `C71_sample_count` and `C71_strictly_inside` (positive centre weight) for two points of the unit corner -/
example : Triangles unitCorner cornerTris ∧ Drawn cornerTris [3, 0] [(1, 2, 3, 4), (1/2, 0, 0, 1)] ∧
    (∀ q ∈ ([(1, 2, 3, 4), (1/2, 0, 0, 1)] : List (ℝ × ℝ × ℝ × ℝ)), 0 < q.1) ∧
    (sampleHull unitCorner cornerTris [3, 0] [(1, 2, 3, 4), (1/2, 0, 0, 1)]).length = 2 := by
  refine ⟨?_, ⟨?_, ?_⟩, ?_, C71_sample_count _ _ _ _ 2 rfl rfl⟩
  · intro t ht; simp only [cornerTris, List.mem_cons, List.not_mem_nil, or_false] at ht
    rcases ht with rfl | rfl | rfl | rfl <;> simp [unitCorner]
  · intro i hi; simp only [List.mem_cons, List.not_mem_nil, or_false] at hi
    rcases hi with rfl | rfl <;> simp [cornerTris]
  · intro q hq; simp only [List.mem_cons, List.not_mem_nil, or_false] at hq
    rcases hq with rfl | rfl <;> norm_num
  · intro q hq; simp only [List.mem_cons, List.not_mem_nil, or_false] at hq
    rcases hq with rfl | rfl <;> norm_num

/-- the probabilities of the unit corner -/
example : hullProbs unitCorner cornerTris = [1/4, 1/4, 1/4, 1/4] :=
  C71_tetrahedron_equal _ _ _ _ (by norm_num [V3.dot, V3.cross])

end XRD
