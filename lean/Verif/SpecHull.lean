import Verif.Model.Render
import Mathlib.Analysis.Convex.Combination

/-! Specification of the external polyhedron computations (qhull through scipy), and proof that it can be met. -/

namespace XRD
open V3 M3
open scoped Classical

/-- `H` is what `scipy.spatial.ConvexHull` documents for the points `vs`: the points, the facet equations with outward unit
normals, whose solution set is the convex hull of the points, and the volume (stated for tetrahedra). -/
structure Spec.IsHull (H : Hull) (vs : List V3) : Prop where
  points : H.points = vs
  unit : ∀ e ∈ H.equations, norm e.n = 1
  faces : ∀ p, (∀ e ∈ H.equations, e.n.dot p + e.d ≤ 0) ↔ p ∈ convexHull ℝ {v | v ∈ vs}
  solid : ∀ e ∈ H.equations, ∃ v ∈ vs, e.n.dot v + e.d < 0
  volume : ∀ a b c d, vs = [a, b, c, d] → H.volume = |dot (cross (b - a) (c - a)) (d - a)| / 6

/-- the points do not lie in one plane -/
def Spec.Solid (vs : List V3) : Prop :=
  ∃ a ∈ vs, ∃ b ∈ vs, ∃ c ∈ vs, ∃ d ∈ vs, dot (cross (b - a) (c - a)) (d - a) ≠ 0

/-- the beam intersection of a solid tetrahedron entirely inside the beam is the tetrahedron -/
def Spec.BeamHull (hull : Beam → List V3 → Option Hull) : Prop :=
  ∀ b vs, vs.length = 4 → (∀ v ∈ vs, b.contains v) → Spec.Solid vs → ∃ H, hull b vs = some H ∧ Spec.IsHull H vs

/-- the equations are those of facets: planes through three points of the hull that are not on a line -/
def Spec.Facets (H : Hull) : Prop :=
  ∀ e ∈ H.equations, ∃ a ∈ H.points, ∃ b ∈ H.points, ∃ c ∈ H.points, cross (b - a) (c - a) ≠ 0 ∧
    e.n.dot a + e.d = 0 ∧ e.n.dot b + e.d = 0 ∧ e.n.dot c + e.d = 0

/-- plane through `a`, `b`, `c` with the unit normal pointing away from `d` -/
noncomputable def face (a b c d : V3) : HalfSpace :=
  let m := cross (b - a) (c - a)
  let m' := if 0 < m.dot (d - a) then -m else m
  let n := (1 / norm m') • m'
  ⟨n, -(n.dot a)⟩

/-- hull of a tetrahedron -/
noncomputable def tetraHull (a b c d : V3) : Hull :=
  ⟨[a, b, c, d], [face a b c d, face a b d c, face a c d b, face b c d a], |dot (cross (b - a) (c - a)) (d - a)| / 6⟩

theorem face_val (a b c d p : V3) (h : dot (cross (b - a) (c - a)) (d - a) ≠ 0) :
    norm (face a b c d).n = 1 ∧ ∃ w : ℝ, 0 < w ∧ (face a b c d).n.dot p + (face a b c d).d =
      -(w * (dot (cross (b - a) (c - a)) (p - a) / dot (cross (b - a) (c - a)) (d - a))) := by
  set m := cross (b - a) (c - a) with hm
  have hm0 : m ≠ 0 := by
    intro h0; apply h; rw [h0]; simp [V3.dot]
  have hn : 0 < norm m := norm_pos.mpr hm0
  have hdot : ∀ (s : ℝ) (q : V3), (s • m).dot q = s * m.dot q := by intro s q; simp [V3.dot]; ring
  have hsub : ∀ q : V3, m.dot (q - a) = m.dot q - m.dot a := by intro q; simp [V3.dot]; ring
  have hneg : -m = (-1 : ℝ) • m := by ext <;> simp
  unfold face
  simp only [← hm]
  by_cases hp : 0 < m.dot (d - a)
  · rw [if_pos hp, V3.norm_neg, hneg, smul_smul]
    constructor
    · rw [V3.norm_smul, mul_neg_one, abs_neg, abs_of_pos (by positivity)]; field_simp
    · refine ⟨m.dot (d - a) / norm m, by positivity, ?_⟩
      rw [hdot, hdot, hsub p]
      field_simp; ring
  · rw [if_neg hp]
    have hp' : m.dot (d - a) < 0 := lt_of_le_of_ne (not_lt.mp hp) h
    constructor
    · rw [V3.norm_smul, abs_of_pos (by positivity)]; field_simp
    · refine ⟨-m.dot (d - a) / norm m, div_pos (by linarith) hn, ?_⟩
      rw [hdot, hdot, hsub p]
      field_simp; ring

theorem face_self (a b c d : V3) (h : dot (cross (b - a) (c - a)) (d - a) ≠ 0) : (face a b c d).n.dot d + (face a b c d).d < 0 := by
  obtain ⟨-, w, hw, e⟩ := face_val a b c d d h
  rw [e, div_self h]; linarith

theorem face_nonpos (a b c d p : V3) (h : dot (cross (b - a) (c - a)) (d - a) ≠ 0) :
    (face a b c d).n.dot p + (face a b c d).d ≤ 0 ↔ 0 ≤ dot (cross (b - a) (c - a)) (p - a) / dot (cross (b - a) (c - a)) (d - a) := by
  obtain ⟨-, w, hw, e⟩ := face_val a b c d p h
  rw [e]
  constructor
  · intro h1; by_contra hc; push Not at hc; nlinarith
  · intro h1; nlinarith [mul_nonneg hw.le h1]

/-- the specification of `ConvexHull` is met by an explicit hull, for every tetrahedron -/
theorem tetraHull_isHull (a b c d : V3) (h : dot (cross (b - a) (c - a)) (d - a) ≠ 0) : Spec.IsHull (tetraHull a b c d) [a, b, c, d] := by
  obtain ⟨Δ, hΔ⟩ : ∃ Δ, Δ = dot (cross (b - a) (c - a)) (d - a) := ⟨_, rfl⟩
  have h1 : dot (cross (b - a) (d - a)) (c - a) = -Δ := by rw [hΔ]; simp [V3.dot, V3.cross]; ring
  have h2 : dot (cross (c - a) (d - a)) (b - a) = Δ := by rw [hΔ]; simp [V3.dot, V3.cross]; ring
  have h3 : dot (cross (c - b) (d - b)) (a - b) = -Δ := by rw [hΔ]; simp [V3.dot, V3.cross]; ring
  have h0 : Δ ≠ 0 := by rw [hΔ]; exact h
  have g1 : dot (cross (b - a) (d - a)) (c - a) ≠ 0 := by rw [h1]; simpa using h0
  have g2 : dot (cross (c - a) (d - a)) (b - a) ≠ 0 := by rw [h2]; exact h0
  have g3 : dot (cross (c - b) (d - b)) (a - b) ≠ 0 := by rw [h3]; simpa using h0
  have mem : ∀ P : HalfSpace → Prop, (∀ e ∈ (tetraHull a b c d).equations, P e) ↔
      P (face a b c d) ∧ P (face a b d c) ∧ P (face a c d b) ∧ P (face b c d a) := by
    intro P; simp [tetraHull]
  constructor
  · rfl
  · rw [mem]
    exact ⟨(face_val a b c d a h).1, (face_val a b d c a g1).1, (face_val a c d b a g2).1, (face_val b c d a a g3).1⟩
  · intro p
    rw [mem, face_nonpos _ _ _ _ _ h, face_nonpos _ _ _ _ _ g1, face_nonpos _ _ _ _ _ g2, face_nonpos _ _ _ _ _ g3, ← hΔ, h1, h2, h3]
    constructor
    · rintro ⟨l1, l2, l3, l4⟩
      obtain ⟨wd, ed⟩ : ∃ w, w = dot (cross (b - a) (c - a)) (p - a) / Δ := ⟨_, rfl⟩
      obtain ⟨wc, ec⟩ : ∃ w, w = dot (cross (b - a) (d - a)) (p - a) / -Δ := ⟨_, rfl⟩
      obtain ⟨wb, eb⟩ : ∃ w, w = dot (cross (c - a) (d - a)) (p - a) / Δ := ⟨_, rfl⟩
      obtain ⟨wa, ea⟩ : ∃ w, w = dot (cross (c - b) (d - b)) (p - b) / -Δ := ⟨_, rfl⟩
      rw [← ed] at l1; rw [← ec] at l2; rw [← eb] at l3; rw [← ea] at l4
      have hsum : wa + wb + wc + wd = 1 := by
        rw [ea, eb, ec, ed, div_neg, div_neg]
        field_simp
        rw [hΔ]; simp [V3.dot, V3.cross]; ring
      have hp : p = wa • a + wb • b + wc • c + wd • d := by
        have : Δ • p = Δ • (wa • a + wb • b + wc • c + wd • d) := by
          have e1 : Δ * wd = dot (cross (b - a) (c - a)) (p - a) := by rw [ed]; field_simp
          have e2 : Δ * wc = -dot (cross (b - a) (d - a)) (p - a) := by rw [ec, div_neg]; field_simp
          have e3 : Δ * wb = dot (cross (c - a) (d - a)) (p - a) := by rw [eb]; field_simp
          have e4 : Δ * wa = -dot (cross (c - b) (d - b)) (p - b) := by rw [ea, div_neg]; field_simp
          rw [smul_add, smul_add, smul_add, smul_smul, smul_smul, smul_smul, smul_smul, e1, e2, e3, e4, hΔ]
          ext <;> simp [V3.dot, V3.cross] <;> ring
        have := congrArg (fun v => (Δ⁻¹) • v) this
        simpa only [smul_smul, inv_mul_cancel₀ h0, one_smul] using this
      have hc := convex_convexHull ℝ {v : V3 | v ∈ [a, b, c, d]}
      have hin : ∀ v ∈ [a, b, c, d], v ∈ convexHull ℝ {v : V3 | v ∈ [a, b, c, d]} := fun v hv => subset_convexHull ℝ _ hv
      have := hc.sum_mem (t := Finset.univ) (w := ![wa, wb, wc, wd]) (z := ![a, b, c, d])
        (by intro i _; fin_cases i <;> simpa) (by simp [Fin.sum_univ_four, hsum])
        (by intro i _; fin_cases i <;> simpa using hin _ (by simp))
      rw [Fin.sum_univ_four] at this
      rw [hp]
      simpa using this
    · intro hp
      have hcv : ∀ (n : V3) (x D : ℝ), Convex ℝ {p : V3 | 0 ≤ (n.dot p - x) / D} := by
        intro n x D p hp q hq s t hs ht hst
        simp only [Set.mem_setOf_eq] at hp hq ⊢
        have : (n.dot (s • p + t • q) - x) / D = s * ((n.dot p - x) / D) + t * ((n.dot q - x) / D) := by
          have hx : x = (s + t) * x := by rw [hst, _root_.one_mul]
          have : n.dot (s • p + t • q) = s * n.dot p + t * n.dot q := by simp [V3.dot]; ring
          rw [this]
          conv_lhs => rw [hx]
          ring
        rw [this]; positivity
      have key : ∀ (n o : V3) (D : ℝ), (∀ v ∈ [a, b, c, d], 0 ≤ n.dot (v - o) / D) → 0 ≤ n.dot (p - o) / D := by
        intro n o D hv
        have e : ∀ q : V3, n.dot (q - o) = n.dot q - n.dot o := by intro q; simp [V3.dot]; ring
        have : convexHull ℝ {v : V3 | v ∈ [a, b, c, d]} ⊆ {p : V3 | 0 ≤ (n.dot p - n.dot o) / D} :=
          convexHull_min (by intro v hv'; simp only [Set.mem_setOf_eq]; rw [← e]; exact hv v hv') (hcv _ _ _)
        have := this hp
        simp only [Set.mem_setOf_eq] at this
        rw [e]; exact this
      refine ⟨key _ _ _ ?_, key _ _ _ ?_, key _ _ _ ?_, key _ _ _ ?_⟩
      all_goals
        intro v hv
        simp only [List.mem_cons, List.not_mem_nil, or_false] at hv
        rcases hv with rfl | rfl | rfl | rfl
      all_goals
        first
        | (rw [← hΔ, div_self h0]; norm_num)
        | (rw [h1, div_self (neg_ne_zero.mpr h0)]; norm_num)
        | (rw [h2, div_self h0]; norm_num)
        | (rw [h3, div_self (neg_ne_zero.mpr h0)]; norm_num)
        | (apply le_of_eq; symm; rw [div_eq_zero_iff]; left; simp [V3.dot, V3.cross]; done)
        | (apply le_of_eq; symm; rw [div_eq_zero_iff]; left; simp [V3.dot, V3.cross]; ring)
  · rw [mem]
    exact ⟨⟨d, by simp, face_self _ _ _ _ h⟩, ⟨c, by simp, face_self _ _ _ _ g1⟩, ⟨b, by simp, face_self _ _ _ _ g2⟩, ⟨a, by simp, face_self _ _ _ _ g3⟩⟩
  · intro a' b' c' d' he
    simp only [List.cons.injEq, and_true] at he
    obtain ⟨rfl, rfl, rfl, rfl⟩ := he
    rfl

theorem face_facet (a b c d : V3) (h : dot (cross (b - a) (c - a)) (d - a) ≠ 0) : cross (b - a) (c - a) ≠ 0 ∧
    (face a b c d).n.dot a + (face a b c d).d = 0 ∧ (face a b c d).n.dot b + (face a b c d).d = 0 ∧ (face a b c d).n.dot c + (face a b c d).d = 0 := by
  have key : ∀ p, dot (cross (b - a) (c - a)) (p - a) = 0 → (face a b c d).n.dot p + (face a b c d).d = 0 := by
    intro p hp
    obtain ⟨-, w, -, e⟩ := face_val a b c d p h
    rw [e, hp]; simp
  refine ⟨?_, key a ?_, key b ?_, key c ?_⟩
  · intro h0; apply h; rw [h0]; simp [V3.dot]
  all_goals (simp [V3.dot, V3.cross]; try ring)

theorem tetraHull_facets (a b c d : V3) (h : dot (cross (b - a) (c - a)) (d - a) ≠ 0) : Spec.Facets (tetraHull a b c d) := by
  have g1 : dot (cross (b - a) (d - a)) (c - a) ≠ 0 := by
    rw [show dot (cross (b - a) (d - a)) (c - a) = -dot (cross (b - a) (c - a)) (d - a) by simp [V3.dot, V3.cross]; ring]; simpa using h
  have g2 : dot (cross (c - a) (d - a)) (b - a) ≠ 0 := by
    rw [show dot (cross (c - a) (d - a)) (b - a) = dot (cross (b - a) (c - a)) (d - a) by simp [V3.dot, V3.cross]; ring]; simpa using h
  have g3 : dot (cross (c - b) (d - b)) (a - b) ≠ 0 := by
    rw [show dot (cross (c - b) (d - b)) (a - b) = -dot (cross (b - a) (c - a)) (d - a) by simp [V3.dot, V3.cross]; ring]; simpa using h
  intro e he
  simp only [tetraHull, List.mem_cons, List.not_mem_nil, or_false] at he
  rcases he with rfl | rfl | rfl | rfl
  · exact ⟨a, by simp [tetraHull], b, by simp [tetraHull], c, by simp [tetraHull], face_facet a b c d h⟩
  · exact ⟨a, by simp [tetraHull], b, by simp [tetraHull], d, by simp [tetraHull], face_facet a b d c g1⟩
  · exact ⟨a, by simp [tetraHull], c, by simp [tetraHull], d, by simp [tetraHull], face_facet a c d b g2⟩
  · exact ⟨b, by simp [tetraHull], c, by simp [tetraHull], d, by simp [tetraHull], face_facet b c d a g3⟩

/-- an explicit beam intersection for tetrahedra inside the beam -/
noncomputable def plainHull (_ : Beam) (vs : List V3) : Option Hull :=
  match vs with
  | [a, b, c, d] => if dot (cross (b - a) (c - a)) (d - a) ≠ 0 then some (tetraHull a b c d) else none
  | _ => none

/-- a tetrahedron whose points are not in one plane has nonzero volume, in any order -/
theorem solid_tetra {a b c d : V3} (h : Spec.Solid [a, b, c, d]) : dot (cross (b - a) (c - a)) (d - a) ≠ 0 := by
  intro h0
  obtain ⟨p, hp, q, hq, r, hr, s, hs, hne⟩ := h
  apply hne
  simp only [List.mem_cons, List.not_mem_nil, or_false] at hp hq hr hs
  have e0 := h0
  simp only [V3.dot, V3.cross, V3.sub_x, V3.sub_y, V3.sub_z] at e0 ⊢
  rcases hp with rfl | rfl | rfl | rfl <;> rcases hq with rfl | rfl | rfl | rfl <;> rcases hr with rfl | rfl | rfl | rfl <;>
    rcases hs with rfl | rfl | rfl | rfl <;> first | ring1 | linear_combination e0 | linear_combination -e0

theorem plainHull_beamHull : Spec.BeamHull plainHull := by
  intro b vs hl _ hsol
  match vs, hl with
  | [p, q, r, s], _ =>
    have h := solid_tetra hsol
    exact ⟨tetraHull p q r s, by simp only [plainHull]; rw [if_pos h], tetraHull_isHull p q r s h⟩

theorem plainHull_facets (b : Beam) (vs : List V3) (H : Hull) (h : plainHull b vs = some H) : Spec.Facets H := by
  unfold plainHull at h
  split at h
  · split_ifs at h with h1
    cases h
    exact tetraHull_facets _ _ _ _ h1
  · cases h

end XRD
