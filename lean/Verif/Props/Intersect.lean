import Verif.Model.Intersect
import Verif.SpecHull

/-! C57, C70: the intersection of the beam with a polyhedron. -/

namespace XRD
open V3 M3
open scoped Classical

namespace Spec

/-- strictly inside every half-space -/
def StrictlyInside (hs : List HalfSpace) (p : V3) : Prop := ∀ h ∈ hs, h.n.dot p + h.d < 0

/-- inside every half-space, boundary included -/
def Inside (hs : List HalfSpace) (p : V3) : Prop := ∀ h ∈ hs, h.n.dot p + h.d ≤ 0

/-- every hull that qhull returns is a hull of the points it was given -/
def HullFaithful (S : Scipy) : Prop := ∀ vs H, S.convexHull vs = .ok H → Spec.IsHull H vs

/-- for a strictly interior point and a bounded region, what `HalfspaceIntersection` returns spans the region -/
def HalfspaceFaithful (S : Scipy) : Prop := ∀ hs p pts, StrictlyInside hs p → (∃ R, ∀ x, Inside hs x → nsq x ≤ R) →
  S.halfspaceIntersection hs p = .ok pts → ∀ x, x ∈ convexHull ℝ {v | v ∈ pts} ↔ Inside hs x

end Spec

/-! ### Lemmas -/

theorem mem_uniqueRows (l : List HalfSpace) (h : HalfSpace) : h ∈ uniqueRows l ↔ h ∈ l := by
  unfold uniqueRows
  rw [List.mem_mergeSort, List.mem_dedup]

theorem mem_combined (b : Beam) (H : Hull) (h : HalfSpace) :
    h ∈ b.combined H ↔ (∃ e ∈ H.equations, e.round6 = h) ∨ h ∈ b.halfspaces := by
  unfold Beam.combined
  rw [List.mem_append, mem_uniqueRows, List.mem_map]

theorem dot_listsum (n : V3) (l : List V3) : n.dot l.sum = (l.map fun v => n.dot v).sum := by
  induction l with
  | nil => simp [V3.dot]
  | cons a t ih =>
    rw [List.sum_cons, List.map_cons, List.sum_cons, ← ih]; simp only [V3.dot, add_x, add_y, add_z]; ring

theorem sum_neg_of {l : List V3} {f : V3 → ℝ} (hle : ∀ v ∈ l, f v ≤ 0) (hlt : ∃ v ∈ l, f v < 0) : (l.map f).sum < 0 := by
  induction l with
  | nil => obtain ⟨v, hv, _⟩ := hlt; simp at hv
  | cons a t ih =>
    rw [List.map_cons, List.sum_cons]
    have ht : (t.map f).sum ≤ 0 := by
      clear ih hlt
      induction t with
      | nil => simp
      | cons b u ih =>
        rw [List.map_cons, List.sum_cons]
        have := hle b (by simp)
        have := ih (fun v hv => hle v (by
          rcases List.mem_cons.1 hv with h | h
          · simp [h]
          · simp [h]))
        linarith
    have ha := hle a (by simp)
    obtain ⟨v, hv, h⟩ := hlt
    rcases List.mem_cons.1 hv with rfl | hv
    · linarith
    · have := ih (fun w hw => hle w (List.mem_cons_of_mem _ hw)) ⟨v, hv, h⟩
      linarith

theorem meanV_inside {n : V3} {d : ℝ} {l : List V3} (hle : ∀ v ∈ l, n.dot v + d ≤ 0) (hlt : ∃ v ∈ l, n.dot v + d < 0) :
    n.dot (meanV l) + d < 0 := by
  have hne : l ≠ [] := by rintro rfl; obtain ⟨v, hv, _⟩ := hlt; simp at hv
  have hl : (0 : ℝ) < l.length := by exact_mod_cast List.length_pos_iff.2 hne
  have hs := sum_neg_of (f := fun v => n.dot v + d) hle hlt
  have e : (l.map fun v => n.dot v + d).sum = (l.map fun v => n.dot v).sum + l.length * d := by
    clear hle hlt hne hl hs
    induction l with
    | nil => simp
    | cons a t ih => simp only [List.map_cons, List.sum_cons, ih, List.length_cons]; push_cast; ring
  have : n.dot (meanV l) + d = (1 / (l.length : ℝ)) * (l.map fun v => n.dot v + d).sum := by
    rw [e, ← dot_listsum]
    unfold meanV
    have : n.dot ((1 / (l.length : ℝ)) • l.sum) = (1 / (l.length : ℝ)) * n.dot l.sum := by simp only [V3.dot, smul_x, smul_y, smul_z]; ring
    rw [this, _root_.mul_add]
    field_simp
  rw [this]
  exact mul_neg_of_pos_of_neg (by positivity) hs

theorem hull_vertex {H : Hull} {vs : List V3} (h : Spec.IsHull H vs) {e : HalfSpace} (he : e ∈ H.equations) {v : V3} (hv : v ∈ vs) :
    e.n.dot v + e.d ≤ 0 := ((h.faces v).2 (subset_convexHull ℝ _ hv)) e he

theorem hull_mean {H : Hull} {vs : List V3} (h : Spec.IsHull H vs) : Spec.StrictlyInside H.equations (meanV vs) := by
  intro e he
  exact meanV_inside (fun v hv => hull_vertex h he hv) (h.solid e he)

theorem hull_shrunk {H : Hull} {vs : List V3} (h : Spec.IsHull H vs) {v : V3} (hv : v ∈ vs) :
    Spec.StrictlyInside H.equations (meanV vs + (99 / 100 : ℝ) • (v - meanV vs)) := by
  intro e he
  have h1 := hull_mean h e he
  have h2 := hull_vertex h he hv
  have : e.n.dot (meanV vs + (99 / 100 : ℝ) • (v - meanV vs)) + e.d
      = (1 / 100) * (e.n.dot (meanV vs) + e.d) + (99 / 100) * (e.n.dot v + e.d) := by
    simp only [V3.dot, add_x, add_y, add_z, smul_x, smul_y, smul_z, sub_x, sub_y, sub_z]; ring
  rw [this]; linarith

theorem findFeasible_sound {S : Scipy} {hs : List HalfSpace} {p : V3} (h : findFeasible S hs = .ok (some p)) :
    ∀ e ∈ hs, e.n.dot p + e.d < -(1 / 10 ^ 8) := by
  unfold findFeasible at h
  split at h
  · simp at h
  · rename_i r _
    dsimp only at h
    split at h
    · split at h
      · simp at h
      · simp only [Except.ok.injEq] at h
        split at h
        · simp only [Option.some.injEq] at h; rw [← h]; assumption
        · simp at h
    · simp only [Except.ok.injEq] at h
      split at h
      · simp only [Option.some.injEq] at h; rw [← h]; assumption
      · simp at h

/-- what is known of the interior point, in each of the three ways it is found -/
theorem interiorPoint_sound {S : Scipy} {b : Beam} {H : Hull} {vs : List V3} (hH : Spec.IsHull H vs) {p : V3}
    (h : b.interiorPoint S H vs = .ok (some p)) :
    b.contains p ∧ (Spec.StrictlyInside H.equations p ∨ ∀ e ∈ b.combined H, e.n.dot p + e.d < -(1 / 10 ^ 8)) := by
  unfold Beam.interiorPoint at h
  dsimp only at h
  split at h
  · rename_i hc
    simp only [Except.ok.injEq, Option.some.injEq] at h
    subst h
    exact ⟨hc, .inl (hull_mean hH)⟩
  · split at h
    · rename_i t ht
      simp only [Except.ok.injEq, Option.some.injEq] at h
      subst h
      have h1 := List.find?_some ht
      have h2 := List.mem_of_find?_eq_some ht
      obtain ⟨v, hv, rfl⟩ := List.mem_map.1 h2
      exact ⟨by simpa using h1, .inl (hull_shrunk hH hv)⟩
    · have hs := findFeasible_sound h
      refine ⟨?_, .inr hs⟩
      intro e he
      have := hs e ((mem_combined b H e).2 (.inr he))
      linarith [show (0 : ℝ) < 1 / 10 ^ 8 by norm_num]

/-! ### C57 -/

/-- **C57.** A polyhedron entirely inside the beam is returned unchanged: the result is the hull of its own vertices. -/
theorem C57_contained (S : Scipy) (b : Beam) (vs : List V3) (h : ∀ v ∈ vs, b.contains v) :
    b.intersect S vs = (S.convexHull vs).map some := by
  unfold Beam.intersect
  rw [if_pos h]
  cases S.convexHull vs <;> rfl

/-- **C57** (partial).  The half-space intersection only ever sees points strictly inside the beam and inside the polyhedron:
replacing its behaviour at all other points changes no result, whatever the solver answers.
What is missing: "strictly inside the polyhedron" is stated for the facet equations that are handed over if the solver found the
point, and for the exact facets otherwise; the two differ by the rounding to six decimals (see `C57_rounding_fails`). -/
theorem C57_interior_partial (S S' : Scipy) (b : Beam) (vs : List V3) (hS : Spec.HullFaithful S)
    (h1 : S'.convexHull = S.convexHull) (h2 : S'.linprog = S.linprog)
    (h3 : ∀ hs p H, S.convexHull vs = .ok H → Spec.StrictlyInside b.halfspaces p →
      (Spec.StrictlyInside H.equations p ∨ Spec.StrictlyInside hs p) →
      S'.halfspaceIntersection hs p = S.halfspaceIntersection hs p) :
    b.intersect S' vs = b.intersect S vs := by
  unfold Beam.intersect
  rw [h1]
  by_cases hc : ∀ v ∈ vs, b.contains v
  · rw [if_pos hc, if_pos hc]
  rw [if_neg hc, if_neg hc]
  cases hH : S.convexHull vs with
  | error e => rfl
  | ok H =>
    have he : b.interiorPoint S' H vs = b.interiorPoint S H vs := by
      unfold Beam.interiorPoint findFeasible; rw [h2]
    dsimp only
    rw [he]
    cases hp : b.interiorPoint S H vs with
    | error e => rfl
    | ok o =>
      cases o with
      | none => rfl
      | some p =>
        have hi := interiorPoint_sound (hS vs H hH) hp
        dsimp only
        rw [h3 (b.combined H) p H hH hi.1 (hi.2.imp id fun h e he => lt_trans (h e he) (by norm_num))]

/-- **C57.** When the facet equations of the polyhedron have at most six decimals, the half-space intersection only ever sees
points strictly inside all the half-spaces it is given: replacing its behaviour at all other points changes no result. -/
theorem C57_interior_six_decimals (S S' : Scipy) (b : Beam) (vs : List V3) (hS : Spec.HullFaithful S)
    (h1 : S'.convexHull = S.convexHull) (h2 : S'.linprog = S.linprog)
    (hdec : ∀ H, S.convexHull vs = .ok H → ∀ e ∈ H.equations, ∃ a b c d : ℤ, e = ⟨⟨a / 10 ^ 6, b / 10 ^ 6, c / 10 ^ 6⟩, d / 10 ^ 6⟩)
    (h3 : ∀ hs p, Spec.StrictlyInside hs p → Spec.StrictlyInside b.halfspaces p →
      (∀ H, S.convexHull vs = .ok H → Spec.StrictlyInside H.equations p) →
      S'.halfspaceIntersection hs p = S.halfspaceIntersection hs p) :
    b.intersect S' vs = b.intersect S vs := by
  have hr : ∀ n : ℤ, round6 ((n : ℝ) / 10 ^ 6) = n / 10 ^ 6 := by
    intro n
    unfold round6
    rw [div_mul_cancel₀ _ (by norm_num)]
    have : roundEven (n : ℝ) = n := by unfold roundEven; simp
    rw [this]
  have hre : ∀ H, S.convexHull vs = .ok H → ∀ e ∈ H.equations, e.round6 = e := by
    intro H hH e he
    obtain ⟨a, b, c, d, rfl⟩ := hdec H hH e he
    simp only [HalfSpace.round6, hr]
  unfold Beam.intersect
  rw [h1]
  by_cases hc : ∀ v ∈ vs, b.contains v
  · rw [if_pos hc, if_pos hc]
  rw [if_neg hc, if_neg hc]
  cases hH : S.convexHull vs with
  | error e => rfl
  | ok H =>
    have he : b.interiorPoint S' H vs = b.interiorPoint S H vs := by
      unfold Beam.interiorPoint findFeasible; rw [h2]
    dsimp only
    rw [he]
    cases hp : b.interiorPoint S H vs with
    | error e => rfl
    | ok o =>
      cases o with
      | none => rfl
      | some p =>
        have hi := interiorPoint_sound (hS vs H hH) hp
        have hE : Spec.StrictlyInside H.equations p := by
          rcases hi.2 with h | h
          · exact h
          · intro e he
            have := h e ((mem_combined b H e).2 (.inl ⟨e, he, hre H hH e he⟩))
            linarith [show (0 : ℝ) < 1 / 10 ^ 8 by norm_num]
        have hC : Spec.StrictlyInside (b.combined H) p := by
          intro e he
          rcases (mem_combined b H e).1 he with ⟨e', he', rfl⟩ | h
          · rw [hre H hH e' he']; exact hE e' he'
          · exact hi.1 e h
        dsimp only
        rw [h3 _ p hC hi.1 (fun H' hH' => by rw [hH] at hH'; cases hH'; exact hE)]

/-- **C57.** Whatever the linear program solver answers, a point it contributes is accepted only if it is at least 10⁻⁸ inside
every half-space. -/
theorem C57_solver_point (S : Scipy) (hs : List HalfSpace) (p : V3) (h : findFeasible S hs = .ok (some p)) :
    ∀ e ∈ hs, e.n.dot p + e.d < -(1 / 10 ^ 8) := findFeasible_sound h

/-! ### Distance lost to the rounding -/

theorem roundEven_error (x : ℝ) : |(roundEven x : ℝ) - x| ≤ 1 / 2 := by
  have h1 := Int.floor_le x
  have h2 := Int.lt_floor_add_one x
  unfold roundEven
  split_ifs <;> rw [abs_le] <;> constructor <;> push_cast <;> linarith

theorem round6_error (x : ℝ) : |round6 x - x| ≤ 1 / (2 * 10 ^ 6) := by
  unfold round6
  have h := roundEven_error (x * 10 ^ 6)
  have : (roundEven (x * 10 ^ 6) : ℝ) / 10 ^ 6 - x = ((roundEven (x * 10 ^ 6) : ℝ) - x * 10 ^ 6) / 10 ^ 6 := by ring
  rw [this, abs_div, abs_of_pos (show (0 : ℝ) < 10 ^ 6 by norm_num)]
  rw [div_le_div_iff₀ (by norm_num) (by norm_num)]
  generalize |(roundEven (x * 10 ^ 6) : ℝ) - x * 10 ^ 6| = y at h
  norm_num
  linarith

theorem round6_halfspace (e : HalfSpace) (p : V3) :
    |(e.round6.n.dot p + e.round6.d) - (e.n.dot p + e.d)| ≤ (|p.x| + |p.y| + |p.z| + 1) / (2 * 10 ^ 6) := by
  have hx := round6_error e.n.x
  have hy := round6_error e.n.y
  have hz := round6_error e.n.z
  have hd := round6_error e.d
  have e1 : (e.round6.n.dot p + e.round6.d) - (e.n.dot p + e.d)
      = (round6 e.n.x - e.n.x) * p.x + (round6 e.n.y - e.n.y) * p.y + (round6 e.n.z - e.n.z) * p.z + (round6 e.d - e.d) := by
    simp only [HalfSpace.round6, V3.dot]; ring
  rw [e1]
  have a1 : |(round6 e.n.x - e.n.x) * p.x| ≤ 1 / (2 * 10 ^ 6) * |p.x| := by rw [abs_mul]; exact mul_le_mul_of_nonneg_right hx (abs_nonneg _)
  have a2 : |(round6 e.n.y - e.n.y) * p.y| ≤ 1 / (2 * 10 ^ 6) * |p.y| := by rw [abs_mul]; exact mul_le_mul_of_nonneg_right hy (abs_nonneg _)
  have a3 : |(round6 e.n.z - e.n.z) * p.z| ≤ 1 / (2 * 10 ^ 6) * |p.z| := by rw [abs_mul]; exact mul_le_mul_of_nonneg_right hz (abs_nonneg _)
  have t1 := abs_add_le ((round6 e.n.x - e.n.x) * p.x + (round6 e.n.y - e.n.y) * p.y + (round6 e.n.z - e.n.z) * p.z) (round6 e.d - e.d)
  have t2 := abs_add_le ((round6 e.n.x - e.n.x) * p.x + (round6 e.n.y - e.n.y) * p.y) ((round6 e.n.z - e.n.z) * p.z)
  have t3 := abs_add_le ((round6 e.n.x - e.n.x) * p.x) ((round6 e.n.y - e.n.y) * p.y)
  calc _ ≤ 1 / (2 * 10 ^ 6) * |p.x| + 1 / (2 * 10 ^ 6) * |p.y| + 1 / (2 * 10 ^ 6) * |p.z| + 1 / (2 * 10 ^ 6) := by linarith
    _ = _ := by ring

/-- **C57.** The rounding costs at most half a millionth per coordinate: a point of the polyhedron's interior that is deeper than
`(|x| + |y| + |z| + 1) / (2·10⁶)` below every facet is strictly inside every half-space handed to the intersection, and a point
strictly inside those half-spaces is at most that far outside the polyhedron. -/
theorem C57_rounding_margin (b : Beam) (H : Hull) (p : V3) :
    ((∀ e ∈ H.equations, e.n.dot p + e.d < -((|p.x| + |p.y| + |p.z| + 1) / (2 * 10 ^ 6))) → Spec.StrictlyInside b.halfspaces p →
      Spec.StrictlyInside (b.combined H) p) ∧
    (Spec.StrictlyInside (b.combined H) p →
      Spec.StrictlyInside b.halfspaces p ∧ ∀ e ∈ H.equations, e.n.dot p + e.d < (|p.x| + |p.y| + |p.z| + 1) / (2 * 10 ^ 6)) := by
  constructor
  · intro h hb e he
    rcases (mem_combined b H e).1 he with ⟨e', he', rfl⟩ | h'
    · have := abs_le.1 (round6_halfspace e' p)
      have := h e' he'
      linarith
    · exact hb e h'
  · intro h
    refine ⟨fun e he => h e ((mem_combined b H e).2 (.inr he)), fun e he => ?_⟩
    have := abs_le.1 (round6_halfspace e p)
    have := h e.round6 ((mem_combined b H _).2 (.inl ⟨e, he, rfl⟩))
    linarith

/-- **C57.** For polyhedra that are not small compared with their distance from the origin, the half-space intersection only ever
sees points strictly inside all the half-spaces it is given and strictly inside the beam: replacing its behaviour at all other points changes no result.  "Not small"
means that the mean vertex is deeper than `M / 20000` below every facet, `M` being a bound on `|x| + |y| + |z| + 1` over the vertices. -/
theorem C57_interior_margin (S S' : Scipy) (b : Beam) (vs : List V3) (hS : Spec.HullFaithful S)
    (h1 : S'.convexHull = S.convexHull) (h2 : S'.linprog = S.linprog)
    (M : ℝ) (hM : ∀ v ∈ vs, |v.x| + |v.y| + |v.z| + 1 ≤ M)
    (hdeep : ∀ H, S.convexHull vs = .ok H → ∀ e ∈ H.equations, e.n.dot (meanV vs) + e.d < -(M / 20000))
    (h3 : ∀ hs p, Spec.StrictlyInside hs p → Spec.StrictlyInside b.halfspaces p →
      S'.halfspaceIntersection hs p = S.halfspaceIntersection hs p) :
    b.intersect S' vs = b.intersect S vs := by
  unfold Beam.intersect
  rw [h1]
  by_cases hc : ∀ v ∈ vs, b.contains v
  · rw [if_pos hc, if_pos hc]
  rw [if_neg hc, if_neg hc]
  cases hH : S.convexHull vs with
  | error e => rfl
  | ok H =>
    have he : b.interiorPoint S' H vs = b.interiorPoint S H vs := by
      unfold Beam.interiorPoint findFeasible; rw [h2]
    dsimp only
    rw [he]
    cases hp : b.interiorPoint S H vs with
    | error e => rfl
    | ok o =>
      cases o with
      | none => rfl
      | some p =>
        have hi := interiorPoint_sound (hS vs H hH) hp
        have hne : vs ≠ [] := by rintro rfl; exact hc (by simp)
        have hl : (0 : ℝ) < vs.length := by exact_mod_cast List.length_pos_iff.2 hne
        have hM1 : 1 ≤ M := by
          obtain ⟨v, hv⟩ := List.exists_mem_of_ne_nil vs hne
          have := hM v hv
          have := abs_nonneg v.x; have := abs_nonneg v.y; have := abs_nonneg v.z
          linarith
        have habs : ∀ q : V3, (|q.x| + |q.y| + |q.z| + 1 ≤ M) ↔ ∀ a b c : ℝ, (a = 1 ∨ a = -1) → (b = 1 ∨ b = -1) → (c = 1 ∨ c = -1) →
            dot ⟨a, b, c⟩ q + (1 - M) ≤ 0 := by
          intro q
          constructor
          · rintro h a b c (rfl | rfl) (rfl | rfl) (rfl | rfl) <;> simp only [V3.dot] <;>
              linarith [le_abs_self q.x, le_abs_self q.y, le_abs_self q.z, neg_abs_le q.x, neg_abs_le q.y, neg_abs_le q.z]
          · intro h
            have k1 := h 1 1 1 (by simp) (by simp) (by simp)
            have k2 := h 1 1 (-1) (by simp) (by simp) (by simp)
            have k3 := h 1 (-1) 1 (by simp) (by simp) (by simp)
            have k4 := h 1 (-1) (-1) (by simp) (by simp) (by simp)
            have k5 := h (-1) 1 1 (by simp) (by simp) (by simp)
            have k6 := h (-1) 1 (-1) (by simp) (by simp) (by simp)
            have k7 := h (-1) (-1) 1 (by simp) (by simp) (by simp)
            have k8 := h (-1) (-1) (-1) (by simp) (by simp) (by simp)
            simp only [V3.dot] at k1 k2 k3 k4 k5 k6 k7 k8
            rcases abs_cases q.x with ⟨e1, _⟩ | ⟨e1, _⟩ <;> rcases abs_cases q.y with ⟨e2, _⟩ | ⟨e2, _⟩ <;>
              rcases abs_cases q.z with ⟨e3, _⟩ | ⟨e3, _⟩ <;> rw [e1, e2, e3] <;> linarith
        have hmean : |(meanV vs).x| + |(meanV vs).y| + |(meanV vs).z| + 1 ≤ M := by
          rw [habs]
          intro a b c ha hb hc'
          by_contra hcon
          push Not at hcon
          have : ∀ ε > 0, dot ⟨a, b, c⟩ (meanV vs) + ((1 - M) - ε) < 0 := by
            intro ε hε
            apply meanV_inside
            · intro v hv
              have := (habs v).1 (hM v hv) a b c ha hb hc'
              linarith
            · obtain ⟨v, hv⟩ := List.exists_mem_of_ne_nil vs hne
              have := (habs v).1 (hM v hv) a b c ha hb hc'
              exact ⟨v, hv, by linarith⟩
          have := this _ hcon
          linarith
        have hC : Spec.StrictlyInside (b.combined H) p := by
          unfold Beam.interiorPoint at hp
          dsimp only at hp
          split at hp
          · simp only [Except.ok.injEq, Option.some.injEq] at hp
            subst hp
            refine (C57_rounding_margin b H _).1 ?_ hi.1
            intro e he
            have := hdeep H hH e he
            have : (|(meanV vs).x| + |(meanV vs).y| + |(meanV vs).z| + 1) / (2 * 10 ^ 6) ≤ M / 20000 := by
              rw [div_le_div_iff₀ (by norm_num) (by norm_num)]; nlinarith
            linarith
          · split at hp
            · rename_i t ht
              simp only [Except.ok.injEq, Option.some.injEq] at hp
              subst hp
              obtain ⟨v, hv, rfl⟩ := List.mem_map.1 (List.mem_of_find?_eq_some ht)
              refine (C57_rounding_margin b H _).1 ?_ hi.1
              intro e he
              have k1 := hdeep H hH e he
              have k2 := hull_vertex (hS vs H hH) he hv
              have hb' : |(meanV vs + (99 / 100 : ℝ) • (v - meanV vs)).x| + |(meanV vs + (99 / 100 : ℝ) • (v - meanV vs)).y|
                  + |(meanV vs + (99 / 100 : ℝ) • (v - meanV vs)).z| + 1 ≤ M := by
                rw [habs]
                intro a b c ha hb hc'
                have q1 := (habs _).1 hmean a b c ha hb hc'
                have q2 := (habs _).1 (hM v hv) a b c ha hb hc'
                simp only [V3.dot, add_x, add_y, add_z, smul_x, smul_y, smul_z, sub_x, sub_y, sub_z] at q1 q2 ⊢
                linarith
              have hdiv : (|(meanV vs + (99 / 100 : ℝ) • (v - meanV vs)).x| + |(meanV vs + (99 / 100 : ℝ) • (v - meanV vs)).y|
                  + |(meanV vs + (99 / 100 : ℝ) • (v - meanV vs)).z| + 1) / (2 * 10 ^ 6) ≤ M / (2 * 10 ^ 6) :=
                div_le_div_of_nonneg_right hb' (by norm_num)
              have hsplit : e.n.dot (meanV vs + (99 / 100 : ℝ) • (v - meanV vs)) + e.d
                  = (1 / 100) * (e.n.dot (meanV vs) + e.d) + (99 / 100) * (e.n.dot v + e.d) := by
                simp only [V3.dot, add_x, add_y, add_z, smul_x, smul_y, smul_z, sub_x, sub_y, sub_z]; ring
              rw [hsplit]
              have : M / (2 * 10 ^ 6) = (1 / 100) * (M / 20000) := by ring
              linarith
            · exact fun e he => lt_trans (findFeasible_sound hp e he) (by norm_num)
        dsimp only
        rw [h3 _ p hC hi.1]

/-! ### C70: the region that is returned -/

theorem nsq_convex (R : ℝ) : Convex ℝ {p : V3 | nsq p ≤ R} := by
  intro p hp q hq s t hs ht hst
  simp only [Set.mem_setOf_eq] at hp hq ⊢
  have e : nsq (s • p + t • q) = s * nsq p + t * nsq q - s * t * nsq (p - q) := by
    have ht' : t = 1 - s := by linarith
    subst ht'
    simp only [nsq, V3.dot, add_x, add_y, add_z, smul_x, smul_y, smul_z, sub_x, sub_y, sub_z]; ring
  have := nsq_nonneg (p - q)
  have := mul_nonneg (mul_nonneg hs ht) this
  rw [e]
  have h1 := mul_le_mul_of_nonneg_left hp hs
  have h2 := mul_le_mul_of_nonneg_left hq ht
  have h3 : s * R + t * R = R := by rw [← _root_.add_mul, hst, _root_.one_mul]
  linarith

theorem pts_bounded (vs : List V3) : ∃ R, ∀ x ∈ convexHull ℝ {v : V3 | v ∈ vs}, nsq x ≤ R := by
  refine ⟨(vs.map nsq).sum, fun x hx => ?_⟩
  have : convexHull ℝ {v : V3 | v ∈ vs} ⊆ {p : V3 | nsq p ≤ (vs.map nsq).sum} := by
    refine convexHull_min ?_ (nsq_convex _)
    intro v hv
    simp only [Set.mem_setOf_eq] at hv ⊢
    exact List.single_le_sum (by
      intro y hy
      obtain ⟨w, _, rfl⟩ := List.mem_map.1 hy
      exact nsq_nonneg w) _ (List.mem_map_of_mem hv)
  exact this hx

/-- **C70.** When the facet equations of the polyhedron have at most six decimals and qhull is faithful, a returned hull describes
exactly the points that lie both in the polyhedron and in the beam. -/
theorem C70_region (S : Scipy) (b : Beam) (vs : List V3) (hS : Spec.HullFaithful S) (hI : Spec.HalfspaceFaithful S)
    (hdec : ∀ H, S.convexHull vs = .ok H → ∀ e ∈ H.equations, ∃ a b c d : ℤ, e = ⟨⟨a / 10 ^ 6, b / 10 ^ 6, c / 10 ^ 6⟩, d / 10 ^ 6⟩)
    (H : Hull) (h : b.intersect S vs = .ok (some H)) (x : V3) :
    Spec.Inside H.equations x ↔ x ∈ convexHull ℝ {v | v ∈ vs} ∧ Spec.Inside b.halfspaces x := by
  have hr : ∀ n : ℤ, round6 ((n : ℝ) / 10 ^ 6) = n / 10 ^ 6 := by
    intro n
    unfold round6
    rw [div_mul_cancel₀ _ (by norm_num)]
    have : roundEven (n : ℝ) = n := by unfold roundEven; simp
    rw [this]
  have hre : ∀ H, S.convexHull vs = .ok H → ∀ e ∈ H.equations, e.round6 = e := by
    intro H hH e he
    obtain ⟨a, b, c, d, rfl⟩ := hdec H hH e he
    simp only [HalfSpace.round6, hr]
  unfold Beam.intersect at h
  split at h
  · rename_i hc
    split at h
    · simp at h
    · rename_i H' hH
      simp only [Except.ok.injEq, Option.some.injEq] at h
      subst h
      have hh := hS vs H' hH
      rw [show Spec.Inside H'.equations x ↔ x ∈ convexHull ℝ {v | v ∈ vs} from hh.faces x]
      refine ⟨fun hx => ⟨hx, fun e he => ?_⟩, fun hx => hx.1⟩
      have hcv : Convex ℝ {p : V3 | e.n.dot p + e.d ≤ 0} := by
        intro p hp q hq s t hs ht hst
        simp only [Set.mem_setOf_eq] at hp hq ⊢
        have : e.n.dot (s • p + t • q) + e.d = s * (e.n.dot p + e.d) + t * (e.n.dot q + e.d) := by
          have ht' : t = 1 - s := by linarith
          subst ht'
          simp only [V3.dot, add_x, add_y, add_z, smul_x, smul_y, smul_z]; ring
        rw [this]; nlinarith
      exact (convexHull_min (fun v hv => (hc v hv e he).le) hcv) hx
  · split at h
    · simp at h
    · rename_i H₀ hH
      have hh := hS vs H₀ hH
      split at h
      · simp at h
      · simp at h
      · rename_i p hp
        have hi := interiorPoint_sound hh hp
        have hE : Spec.StrictlyInside H₀.equations p := by
          rcases hi.2 with h | h
          · exact h
          · intro e he
            have := h e ((mem_combined b H₀ e).2 (.inl ⟨e, he, hre H₀ hH e he⟩))
            linarith [show (0 : ℝ) < 1 / 10 ^ 8 by norm_num]
        have hC : Spec.StrictlyInside (b.combined H₀) p := by
          intro e he
          rcases (mem_combined b H₀ e).1 he with ⟨e', he', rfl⟩ | h
          · rw [hre H₀ hH e' he']; exact hE e' he'
          · exact hi.1 e h
        have hin : ∀ y, Spec.Inside (b.combined H₀) y ↔ y ∈ convexHull ℝ {v | v ∈ vs} ∧ Spec.Inside b.halfspaces y := by
          intro y
          rw [← hh.faces y]
          constructor
          · intro hy
            refine ⟨fun e he => ?_, fun e he => hy e ((mem_combined b H₀ e).2 (.inr he))⟩
            exact hy e ((mem_combined b H₀ e).2 (.inl ⟨e, he, hre H₀ hH e he⟩))
          · rintro ⟨k1, k2⟩ e he
            rcases (mem_combined b H₀ e).1 he with ⟨e', he', rfl⟩ | h
            · rw [hre H₀ hH e' he']; exact k1 e' he'
            · exact k2 e h
        obtain ⟨R, hR⟩ := pts_bounded vs
        split at h
        · simp at h
        · rename_i pts hpts
          split at h
          · simp at h
          · rename_i H' hH'
            simp only [Except.ok.injEq, Option.some.injEq] at h
            subst h
            rw [show Spec.Inside H'.equations x ↔ x ∈ convexHull ℝ {v | v ∈ pts} from (hS pts H' hH').faces x,
              hI _ p pts hC ⟨R, fun y hy => hR y ((hin y).1 hy).1⟩ hpts x, hin x]

end XRD
