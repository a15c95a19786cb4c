import Verif.SpecHull
import Verif.Lemmas.Macro2

/-! Property C36: the clipped length of a projection line is the length of the part of the line inside the polyhedron. -/

namespace XRD
open V3 M3 Spec
open scoped Classical

theorem dot_line (n p u : V3) (t : ℝ) : n.dot (p + t • u) = n.dot p + t * n.dot u := by simp [V3.dot]; ring

theorem planeTime_eq {e : HalfSpace} (hn : norm e.n = 1) (p u : V3) :
    (e.n.dot ((-e.d) • e.n) - p.dot e.n) / e.n.dot u = -(e.n.dot p + e.d) / e.n.dot u := by
  have : nsq e.n = 1 := norm_eq_one.mp hn
  have h2 : e.n.dot ((-e.d) • e.n) = -e.d * nsq e.n := by simp [nsq, V3.dot]; ring
  rw [h2, this, V3.dot_comm p e.n]
  congr 1; ring

/-- a finite set of points has bounded projections -/
theorem hull_bounded (vs : List V3) (n : V3) : ∃ M : ℝ, ∀ p ∈ convexHull ℝ {v : V3 | v ∈ vs}, n.dot p ≤ M := by
  have hM : ∃ M : ℝ, ∀ v ∈ vs, n.dot v ≤ M := by
    induction vs with
    | nil => exact ⟨0, by simp⟩
    | cons v vs ih =>
      obtain ⟨M, hM⟩ := ih
      refine ⟨max M (n.dot v), ?_⟩
      intro w hw
      rcases List.mem_cons.mp hw with rfl | hw
      · exact le_max_right _ _
      · exact (hM w hw).trans (le_max_left _ _)
  obtain ⟨M, hM⟩ := hM
  refine ⟨M, ?_⟩
  have hc : Convex ℝ {p : V3 | n.dot p ≤ M} := by
    intro p hp q hq s t hs ht hst
    simp only [Set.mem_setOf_eq] at hp hq ⊢
    have e : n.dot (s • p + t • q) = s * n.dot p + t * n.dot q := by simp [V3.dot]; ring
    rw [e]
    calc s * n.dot p + t * n.dot q ≤ s * M + t * M := by gcongr
      _ = M := by rw [← add_mul, hst, one_mul]
  intro p hp
  exact convexHull_min (fun v hv => hM v hv) hc hp

theorem times_nil {l : List HalfSpace} {p u : V3} (h : Detector.planeTimes l p u = []) : l = [] := by
  unfold Detector.planeTimes at h; exact List.map_eq_nil_iff.mp h

/-- membership of the line in the half-spaces, in terms of the crossing times -/
theorem line_inside (eqs : List HalfSpace) (hn : ∀ e ∈ eqs, norm e.n = 1) (p u : V3) (hpar : ∀ e ∈ eqs, e.n.dot u = 0 → e.n.dot p + e.d ≤ 0) (t : ℝ) :
    (∀ e ∈ eqs, e.n.dot (p + t • u) + e.d ≤ 0) ↔
      (∀ a ∈ Detector.planeTimes (eqs.filter fun e => e.n.dot u < 0) p u, a ≤ t) ∧
      (∀ b ∈ Detector.planeTimes (eqs.filter fun e => e.n.dot u > 0) p u, t ≤ b) := by
  unfold Detector.planeTimes
  have hall : ∀ (q : HalfSpace → Prop) [DecidablePred q] (g : HalfSpace → ℝ) (P : ℝ → Prop),
      (∀ x ∈ (eqs.filter fun e => q e).map g, P x) ↔ ∀ e ∈ eqs, q e → P (g e) := by
    intro q _ g P
    simp only [List.mem_map, List.mem_filter, decide_eq_true_eq]
    constructor
    · intro h e he hq; exact h _ ⟨e, ⟨he, hq⟩, rfl⟩
    · rintro h x ⟨e, ⟨he, hq⟩, rfl⟩; exact h e he hq
  rw [hall, hall]
  constructor
  · intro h
    constructor
    · intro e he hu
      rw [planeTime_eq (hn e he), div_le_iff_of_neg hu]
      have := h e he; rw [dot_line] at this; linarith
    · intro e he hu
      rw [planeTime_eq (hn e he), le_div_iff₀ hu]
      have := h e he; rw [dot_line] at this; linarith
  · rintro ⟨h1, h2⟩ e he
    rw [dot_line]
    rcases lt_trichotomy (e.n.dot u) 0 with hu | hu | hu
    · have := h1 e he hu
      rw [planeTime_eq (hn e he), div_le_iff_of_neg hu] at this; linarith
    · rw [hu, mul_zero, add_zero]; exact hpar e he hu
    · have := h2 e he hu
      rw [planeTime_eq (hn e he), le_div_iff₀ hu] at this; linarith

/-- the two lists of crossing times are not empty for a bounded polyhedron -/
theorem times_nonempty {H : Hull} {vs : List V3} (hH : IsHull H vs) {p u : V3} (hu : norm u = 1)
    (hpar : ∀ e ∈ H.equations, e.n.dot u = 0 → e.n.dot p + e.d ≤ 0) :
    Detector.planeTimes (H.equations.filter fun e => e.n.dot u < 0) p u ≠ [] ∧
    Detector.planeTimes (H.equations.filter fun e => e.n.dot u > 0) p u ≠ [] := by
  have huu : u.dot u = 1 := norm_eq_one.mp hu
  have hle : ∀ (a b : ℝ), a ≤ |a| + |b| := fun a b => by linarith [le_abs_self a, abs_nonneg b]
  constructor
  · intro h0
    obtain ⟨M, hM⟩ := hull_bounded vs (-u)
    -- going backwards for ever stays inside
    cases hb : Detector.planeTimes (H.equations.filter fun e => e.n.dot u > 0) p u with
    | nil =>
      have := hM (p + (-(|M| + |u.dot p| + 1)) • u) ((hH.faces _).mp ((line_inside H.equations hH.unit p u hpar _).mpr ⟨by simp [h0], by simp [hb]⟩))
      have e : (-u).dot (p + (-(|M| + |u.dot p| + 1)) • u) = -(u.dot p) + (|M| + |u.dot p| + 1) * u.dot u := by simp [V3.dot]; ring
      rw [e, huu] at this
      have := le_abs_self M; have := le_abs_self (u.dot p)
      linarith
    | cons b bs =>
      have hm := minL_le (a := b) (l := bs)
      set q := min (Detector.minL b bs) (-(|M| + |u.dot p| + 1)) with hq
      have := hM (p + q • u) ((hH.faces _).mp ((line_inside H.equations hH.unit p u hpar _).mpr ⟨by simp [h0], by
        intro x hx
        rw [hb] at hx
        rcases List.mem_cons.mp hx with rfl | hx
        · exact (min_le_left _ _).trans hm.1
        · exact (min_le_left _ _).trans (hm.2 x hx)⟩))
      have e : (-u).dot (p + q • u) = -(u.dot p) - q * u.dot u := by simp [V3.dot]; ring
      rw [e, huu] at this
      have := min_le_right (Detector.minL b bs) (-(|M| + |u.dot p| + 1))
      rw [← hq] at this
      have := le_abs_self M; have := le_abs_self (u.dot p)
      linarith
  · intro h0
    obtain ⟨M, hM⟩ := hull_bounded vs u
    cases hb : Detector.planeTimes (H.equations.filter fun e => e.n.dot u < 0) p u with
    | nil =>
      have := hM (p + (|M| + |u.dot p| + 1) • u) ((hH.faces _).mp ((line_inside H.equations hH.unit p u hpar _).mpr ⟨by simp [hb], by simp [h0]⟩))
      have e : u.dot (p + (|M| + |u.dot p| + 1) • u) = u.dot p + (|M| + |u.dot p| + 1) * u.dot u := by simp [V3.dot]; ring
      rw [e, huu] at this
      have := le_abs_self M; have := neg_abs_le (u.dot p)
      linarith
    | cons b bs =>
      have hm := le_maxL (a := b) (l := bs)
      set q := max (Detector.maxL b bs) (|M| + |u.dot p| + 1) with hq
      have := hM (p + q • u) ((hH.faces _).mp ((line_inside H.equations hH.unit p u hpar _).mpr ⟨by
        intro x hx
        rw [hb] at hx
        rcases List.mem_cons.mp hx with rfl | hx
        · exact hm.1.trans (le_max_left _ _)
        · exact (hm.2 x hx).trans (le_max_left _ _), by simp [h0]⟩))
      have e : u.dot (p + q • u) = u.dot p + q * u.dot u := by simp [V3.dot]; ring
      rw [e, huu] at this
      have := le_max_right (Detector.maxL b bs) (|M| + |u.dot p| + 1)
      rw [← hq] at this
      have := le_abs_self M; have := neg_abs_le (u.dot p)
      linarith

/-- C36, for lines that are on the inner side of every face plane parallel to them, in particular for every line that meets the
polyhedron and for every direction that is parallel to no face: the clip length is the length of the chord, a chord of at most
`10⁻¹²` counting as none.  Missing: a line outside a face plane parallel to it (`C36_parallel_face_fails`). -/
theorem C36_clip_length_partial (H : Hull) (vs : List V3) (hH : IsHull H vs) (p u : V3) (hu : norm u = 1)
    (hpar : ∀ e ∈ H.equations, e.n.dot u = 0 → e.n.dot p + e.d ≤ 0) :
    (∃ a b : ℝ, (∀ t : ℝ, p + t • u ∈ convexHull ℝ {v | v ∈ vs} ↔ a ≤ t ∧ t ≤ b) ∧ a + 1 / 10 ^ 12 < b ∧ Detector.clipLength H.equations p u = b - a) ∨
    ((∀ s t : ℝ, p + s • u ∈ convexHull ℝ {v | v ∈ vs} → p + t • u ∈ convexHull ℝ {v | v ∈ vs} → t ≤ s + 1 / 10 ^ 12) ∧
      Detector.clipLength H.equations p u = 0) := by
  obtain ⟨h1, h2⟩ := times_nonempty hH hu hpar
  have hin := line_inside H.equations hH.unit p u hpar
  unfold Detector.clipLength
  cases ha : Detector.planeTimes (H.equations.filter fun e => e.n.dot u < 0) p u with
  | nil => exact absurd ha h1
  | cons a as =>
    cases hb : Detector.planeTimes (H.equations.filter fun e => e.n.dot u > 0) p u with
    | nil => exact absurd hb h2
    | cons b bs =>
      have key : ∀ t, p + t • u ∈ convexHull ℝ {v | v ∈ vs} ↔ Detector.maxL a as ≤ t ∧ t ≤ Detector.minL b bs := by
        intro t
        rw [← hH.faces, hin, ha, hb]
        constructor
        · rintro ⟨h3, h4⟩
          exact ⟨h3 _ (maxL_mem a as), h4 _ (minL_mem b bs)⟩
        · rintro ⟨h3, h4⟩
          constructor
          · intro x hx
            rcases List.mem_cons.mp hx with rfl | hx
            · exact le_maxL.1.trans h3
            · exact (le_maxL.2 x hx).trans h3
          · intro x hx
            rcases List.mem_cons.mp hx with rfl | hx
            · exact h4.trans minL_le.1
            · exact h4.trans (minL_le.2 x hx)
      simp only
      by_cases hlt : Detector.minL b bs > Detector.maxL a as + 1 / 10 ^ 12
      · left
        rw [if_pos hlt]
        exact ⟨_, _, key, hlt, rfl⟩
      · right
        rw [if_neg hlt]
        refine ⟨?_, rfl⟩
        intro s t hs ht
        have := (key s).mp hs
        have := (key t).mp ht
        linarith

/-- the hypothesis holds for every line through a point of the polyhedron -/
theorem C36_through_inner_point (H : Hull) (vs : List V3) (hH : IsHull H vs) (p u : V3) (hu : norm u = 1)
    (hp : p ∈ convexHull ℝ {v | v ∈ vs}) :
    (∃ a b : ℝ, (∀ t : ℝ, p + t • u ∈ convexHull ℝ {v | v ∈ vs} ↔ a ≤ t ∧ t ≤ b) ∧ a + 1 / 10 ^ 12 < b ∧ Detector.clipLength H.equations p u = b - a) ∨
    ((∀ s t : ℝ, p + s • u ∈ convexHull ℝ {v | v ∈ vs} → p + t • u ∈ convexHull ℝ {v | v ∈ vs} → t ≤ s + 1 / 10 ^ 12) ∧
      Detector.clipLength H.equations p u = 0) :=
  C36_clip_length_partial H vs hH p u hu fun e he _ => (hH.faces p).mpr hp e he

/-- the corner of the unit cube -/
noncomputable def cornerHull : Hull := tetraHull ⟨0, 0, 0⟩ ⟨1, 0, 0⟩ ⟨0, 1, 0⟩ ⟨0, 0, 1⟩
theorem cornerHull_isHull : IsHull cornerHull [⟨0, 0, 0⟩, ⟨1, 0, 0⟩, ⟨0, 1, 0⟩, ⟨0, 0, 1⟩] :=
  tetraHull_isHull _ _ _ _ (by simp [V3.dot, V3.cross])

/-- the hypotheses are met by a line through the tetrahedron and it is clipped to positive length -/
example : (∃ a b, a + 1 / 10 ^ 12 < b ∧ Detector.clipLength cornerHull.equations ⟨1/4, 1/4, 1/4⟩ ⟨1, 0, 0⟩ = b - a) := by
  have hu : norm (⟨1, 0, 0⟩ : V3) = 1 := by rw [norm_eq_one]; simp [nsq, V3.dot]
  have hv : ∀ v ∈ [(⟨0, 0, 0⟩ : V3), ⟨1, 0, 0⟩, ⟨0, 1, 0⟩, ⟨0, 0, 1⟩],
      v ∈ convexHull ℝ {v : V3 | v ∈ [(⟨0, 0, 0⟩ : V3), ⟨1, 0, 0⟩, ⟨0, 1, 0⟩, ⟨0, 0, 1⟩]} := fun v hv => subset_convexHull ℝ _ hv
  have mem : ∀ s : ℝ, 0 ≤ s → s ≤ 1 / 2 → (⟨s, 1/4, 1/4⟩ : V3) ∈ convexHull ℝ {v : V3 | v ∈ [(⟨0, 0, 0⟩ : V3), ⟨1, 0, 0⟩, ⟨0, 1, 0⟩, ⟨0, 0, 1⟩]} := by
    intro s h0 h1
    have := (convex_convexHull ℝ {v : V3 | v ∈ [(⟨0, 0, 0⟩ : V3), ⟨1, 0, 0⟩, ⟨0, 1, 0⟩, ⟨0, 0, 1⟩]}).sum_mem (t := Finset.univ)
      (w := ![1/2 - s, s, 1/4, 1/4]) (z := ![⟨0, 0, 0⟩, ⟨1, 0, 0⟩, ⟨0, 1, 0⟩, ⟨0, 0, 1⟩])
      (by intro i _; fin_cases i <;> simp <;> linarith) (by simp [Fin.sum_univ_four]; ring)
      (by intro i _; fin_cases i <;> exact hv _ (by simp))
    rw [Fin.sum_univ_four] at this
    convert this using 1
    ext <;> simp
  rcases C36_through_inner_point cornerHull _ cornerHull_isHull ⟨1/4, 1/4, 1/4⟩ ⟨1, 0, 0⟩ hu (mem _ (by norm_num) (by norm_num)) with
    ⟨a, b, -, h1, h2⟩ | ⟨h1, -⟩
  · exact ⟨a, b, h1, h2⟩
  · exfalso
    have := h1 (-1/4) (1/4) (by convert mem 0 le_rfl (by norm_num) using 1; ext <;> simp; norm_num)
      (by convert mem (1/2) (by norm_num) le_rfl using 1; ext <;> simp; norm_num)
    norm_num at this

/-- C36 fails for a line outside a face plane parallel to it: the line misses the polyhedron and is clipped to length 19/10. -/
theorem C36_parallel_face_fails : ∃ (H : Hull) (vs : List V3) (p u : V3), IsHull H vs ∧ norm u = 1 ∧
    (∀ t : ℝ, p + t • u ∉ convexHull ℝ {v | v ∈ vs}) ∧ Detector.clipLength H.equations p u = 19 / 10 := by
  refine ⟨cornerHull, _, ⟨0, -1, 1/10⟩, ⟨1, 0, 0⟩, cornerHull_isHull, by rw [norm_eq_one]; simp [nsq, V3.dot], ?_, ?_⟩
  · intro t
    rw [← cornerHull_isHull.faces]
    intro h
    have h1 := h (face ⟨0, 0, 0⟩ ⟨1, 0, 0⟩ ⟨0, 0, 1⟩ ⟨0, 1, 0⟩) (by simp [cornerHull, tetraHull])
    rw [face_nonpos _ _ _ _ _ (by simp [V3.dot, V3.cross])] at h1
    simp [V3.dot, V3.cross] at h1
    norm_num at h1
  · have s3 : Real.sqrt 3 ≠ 0 := by positivity
    have f1 : face ⟨0, 0, 0⟩ ⟨1, 0, 0⟩ ⟨0, 1, 0⟩ ⟨0, 0, 1⟩ = ⟨⟨0, 0, -1⟩, 0⟩ := by
      simp [face, V3.cross, V3.dot, V3.norm, nsq]
      ext <;> simp
    have f2 : face ⟨0, 0, 0⟩ ⟨1, 0, 0⟩ ⟨0, 0, 1⟩ ⟨0, 1, 0⟩ = ⟨⟨0, -1, 0⟩, 0⟩ := by
      simp [face, V3.cross, V3.dot, V3.norm, nsq, show ¬ ((1:ℝ) < 0) by norm_num]
    have f3 : face ⟨0, 0, 0⟩ ⟨0, 1, 0⟩ ⟨0, 0, 1⟩ ⟨1, 0, 0⟩ = ⟨⟨-1, 0, 0⟩, 0⟩ := by
      simp [face, V3.cross, V3.dot, V3.norm, nsq]
      ext <;> simp
    have f4 : face ⟨1, 0, 0⟩ ⟨0, 1, 0⟩ ⟨0, 0, 1⟩ ⟨0, 0, 0⟩ = ⟨(1 / Real.sqrt 3) • ⟨1, 1, 1⟩, -(1 / Real.sqrt 3)⟩ := by
      simp [face, V3.cross, V3.dot, V3.norm, nsq]
      norm_num
    unfold cornerHull tetraHull
    simp only [f1, f2, f3, f4]
    have d1 : (⟨0, 0, -1⟩ : V3).dot ⟨1, 0, 0⟩ = 0 := by simp [V3.dot]
    have d2 : (⟨0, -1, 0⟩ : V3).dot ⟨1, 0, 0⟩ = 0 := by simp [V3.dot]
    have d3 : (⟨-1, 0, 0⟩ : V3).dot ⟨1, 0, 0⟩ = -1 := by simp [V3.dot]
    have d4 : ((1 / Real.sqrt 3) • (⟨1, 1, 1⟩ : V3)).dot ⟨1, 0, 0⟩ = 1 / Real.sqrt 3 := by simp [V3.dot]
    have p4 : 0 < 1 / Real.sqrt 3 := by positivity
    have q4 : ¬ (1 / Real.sqrt 3 < 0) := not_lt.mpr p4.le
    have n4 : norm ((1 / Real.sqrt 3) • (⟨1, 1, 1⟩ : V3)) = 1 := by
      rw [V3.norm_smul, abs_of_pos p4]
      have : norm (⟨1, 1, 1⟩ : V3) = Real.sqrt 3 := by unfold V3.norm nsq V3.dot; norm_num
      rw [this]; field_simp
    unfold Detector.clipLength
    have e1 : (List.filter (fun e : HalfSpace => decide (e.n.dot ⟨1, 0, 0⟩ < 0)) [⟨⟨0, 0, -1⟩, 0⟩, ⟨⟨0, -1, 0⟩, 0⟩, ⟨⟨-1, 0, 0⟩, 0⟩, ⟨(1 / Real.sqrt 3) • ⟨1, 1, 1⟩, -(1 / Real.sqrt 3)⟩]) =
        [⟨⟨-1, 0, 0⟩, 0⟩] := by
      simp only [List.filter_cons, List.filter_nil, d1, d2, d3, d4, q4, decide_false, lt_self_iff_false]
      simp
    have e2 : (List.filter (fun e : HalfSpace => decide (e.n.dot ⟨1, 0, 0⟩ > 0)) [⟨⟨0, 0, -1⟩, 0⟩, ⟨⟨0, -1, 0⟩, 0⟩, ⟨⟨-1, 0, 0⟩, 0⟩, ⟨(1 / Real.sqrt 3) • ⟨1, 1, 1⟩, -(1 / Real.sqrt 3)⟩]) =
        [⟨(1 / Real.sqrt 3) • ⟨1, 1, 1⟩, -(1 / Real.sqrt 3)⟩] := by
      simp only [List.filter_cons, List.filter_nil, d1, d2, d3, d4, gt_iff_lt, p4, decide_true, lt_self_iff_false]
      simp
    rw [e1, e2]
    have t3 : ((⟨-1, 0, 0⟩ : V3).dot ((-(0:ℝ)) • ⟨-1, 0, 0⟩) - (⟨0, -1, 1/10⟩ : V3).dot ⟨-1, 0, 0⟩) / (⟨-1, 0, 0⟩ : V3).dot ⟨1, 0, 0⟩ = 0 := by
      simp [V3.dot]
    have t4 := planeTime_eq (e := ⟨(1 / Real.sqrt 3) • ⟨1, 1, 1⟩, -(1 / Real.sqrt 3)⟩) n4 ⟨0, -1, 1/10⟩ ⟨1, 0, 0⟩
    simp only at t4
    have t5 : -(((1 / Real.sqrt 3) • (⟨1, 1, 1⟩ : V3)).dot ⟨0, -1, 1/10⟩ + -(1 / Real.sqrt 3)) / (1 / Real.sqrt 3) = 19 / 10 := by
      simp [V3.dot]; field_simp; norm_num
    rw [d4, t5] at t4
    simp only [Detector.planeTimes, List.map_cons, List.map_nil, t3, d4, t4, Detector.minL, Detector.maxL, List.foldl_nil]
    norm_num

end XRD
