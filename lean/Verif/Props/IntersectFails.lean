import Verif.Props.Intersect

/-! C57, C70: concrete beams and polyhedra, meeting the hypotheses or refuting the full claim. -/

namespace XRD
open V3 M3
open scoped Classical

/-- the tetrahedron with corner `o` and edges `a`, `b`, `c` along the axes -/
def cornerPts (o : V3) (a b c : ℝ) : List V3 := [o, o + ⟨a, 0, 0⟩, o + ⟨0, b, 0⟩, o + ⟨0, 0, c⟩]

/-- its hull -/
noncomputable def axisHull (o : V3) (a b c : ℝ) : Hull := tetraHull o (o + ⟨a, 0, 0⟩) (o + ⟨0, b, 0⟩) (o + ⟨0, 0, c⟩)

theorem axisHull_isHull (o : V3) {a b c : ℝ} (ha : 0 < a) (hb : 0 < b) (hc : 0 < c) :
    Spec.IsHull (axisHull o a b c) (cornerPts o a b c) := by
  apply tetraHull_isHull
  have : dot (cross (o + ⟨a, 0, 0⟩ - o) (o + ⟨0, b, 0⟩ - o)) (o + ⟨0, 0, c⟩ - o) = a * b * c := by
    simp only [V3.dot, V3.cross, add_x, add_y, add_z, sub_x, sub_y, sub_z]; ring
  rw [this]; positivity

theorem axisHull_equations (o : V3) {a b c k : ℝ} (ha : 0 < a) (hb : 0 < b) (hc : 0 < c) (hk : 0 < k)
    (hk2 : k ^ 2 = (b * c) ^ 2 + (a * c) ^ 2 + (a * b) ^ 2) :
    (axisHull o a b c).equations = [⟨⟨0, 0, -1⟩, o.z⟩, ⟨⟨0, -1, 0⟩, o.y⟩, ⟨⟨-1, 0, 0⟩, o.x⟩,
      ⟨⟨b * c / k, a * c / k, a * b / k⟩, -(b * c / k * (o.x + a) + a * c / k * o.y + a * b / k * o.z)⟩] := by
  have hnorm : ∀ (v : V3) (r : ℝ), 0 ≤ r → nsq v = r ^ 2 → norm v = r := by
    intro v r hr h
    unfold V3.norm; rw [h, Real.sqrt_sq hr]
  have hab : 0 < a * b := by positivity
  have hac : 0 < a * c := by positivity
  have hbc : 0 < b * c := by positivity
  have m1 : cross (o + ⟨a, 0, 0⟩ - o) (o + ⟨0, b, 0⟩ - o) = ⟨0, 0, a * b⟩ := by
    ext <;> simp [V3.cross]
  have m2 : cross (o + ⟨a, 0, 0⟩ - o) (o + ⟨0, 0, c⟩ - o) = ⟨0, -(a * c), 0⟩ := by
    ext <;> simp [V3.cross]
  have m3 : cross (o + ⟨0, b, 0⟩ - o) (o + ⟨0, 0, c⟩ - o) = ⟨b * c, 0, 0⟩ := by
    ext <;> simp [V3.cross]
  have m4 : cross (o + ⟨0, b, 0⟩ - (o + ⟨a, 0, 0⟩)) (o + ⟨0, 0, c⟩ - (o + ⟨a, 0, 0⟩)) = ⟨b * c, a * c, a * b⟩ := by
    ext <;> simp [V3.cross] <;> ring
  have n1 : norm (-(⟨0, 0, a * b⟩ : V3)) = a * b := hnorm _ _ hab.le (by simp [nsq, V3.dot]; ring)
  have n2 : norm (⟨0, -(a * c), 0⟩ : V3) = a * c := hnorm _ _ hac.le (by simp [nsq, V3.dot]; ring)
  have n3 : norm (-(⟨b * c, 0, 0⟩ : V3)) = b * c := hnorm _ _ hbc.le (by simp [nsq, V3.dot]; ring)
  have n4 : norm (⟨b * c, a * c, a * b⟩ : V3) = k := hnorm _ _ hk.le (by rw [hk2]; simp [nsq, V3.dot]; ring)
  have d1 : 0 < dot (⟨0, 0, a * b⟩ : V3) (o + ⟨0, 0, c⟩ - o) := by simp [V3.dot]; positivity
  have d2 : ¬ 0 < dot (⟨0, -(a * c), 0⟩ : V3) (o + ⟨0, b, 0⟩ - o) := by
    have : 0 < a * c * b := by positivity
    simp [V3.dot]; linarith
  have d3 : 0 < dot (⟨b * c, 0, 0⟩ : V3) (o + ⟨a, 0, 0⟩ - o) := by simp [V3.dot]; positivity
  have d4 : ¬ 0 < dot (⟨b * c, a * c, a * b⟩ : V3) (o - (o + ⟨a, 0, 0⟩)) := by
    have : 0 < b * c * a := by positivity
    simp [V3.dot]; linarith
  simp only [axisHull, tetraHull, face, m1, m2, m3, m4, if_pos d1, if_neg d2, if_pos d3, if_neg d4, n1, n2, n3, n4, List.cons.injEq,
    HalfSpace.mk.injEq, and_true]
  refine ⟨⟨?_, ?_⟩, ⟨?_, ?_⟩, ⟨?_, ?_⟩, ?_, ?_⟩
  · ext <;> simp <;> field_simp
  · simp [V3.dot]; field_simp
  · ext <;> simp <;> field_simp
  · simp [V3.dot]; field_simp
  · ext <;> simp <;> field_simp
  · simp [V3.dot]; field_simp
  · ext <;> simp <;> field_simp
  · simp [V3.dot]; field_simp

/-! ### Exact facets: a beam cutting off the corner of a tetrahedron -/

/-- a tetrahedral beam whose slanted side is parallel to that of `cornerPts 0 10 8 (15 / 2)` -/
noncomputable def slantBeam : Beam :=
  ⟨⟨1, 0, 0⟩, 1, [], 0, [⟨⟨48 / 100, 6 / 10, 64 / 100⟩, -24 / 10⟩, ⟨⟨-1, 0, 0⟩, -100⟩, ⟨⟨0, -1, 0⟩, -100⟩, ⟨⟨0, 0, -1⟩, -100⟩], ⟨0, 1, 0⟩⟩

/-- qhull for that beam -/
noncomputable def slantScipy : Scipy where
  convexHull := fun vs => if vs = cornerPts 0 10 8 (15 / 2) then .ok (axisHull 0 10 8 (15 / 2))
    else if vs = cornerPts 0 5 4 (15 / 4) then .ok (axisHull 0 5 4 (15 / 4)) else .error .runtimeError
  halfspaceIntersection := fun hs p => if hs = slantBeam.combined (axisHull 0 10 8 (15 / 2)) ∧ Spec.StrictlyInside hs p
    then .ok (cornerPts 0 5 4 (15 / 4)) else .error .runtimeError
  linprog := fun _ => none

theorem slant_big : (axisHull 0 10 8 (15 / 2)).equations = [⟨⟨0, 0, -1⟩, 0⟩, ⟨⟨0, -1, 0⟩, 0⟩, ⟨⟨-1, 0, 0⟩, 0⟩,
    ⟨⟨48 / 100, 6 / 10, 64 / 100⟩, -48 / 10⟩] := by
  rw [axisHull_equations 0 (k := 125) (by norm_num) (by norm_num) (by norm_num) (by norm_num) (by norm_num)]
  norm_num

theorem slant_small : (axisHull 0 5 4 (15 / 4)).equations = [⟨⟨0, 0, -1⟩, 0⟩, ⟨⟨0, -1, 0⟩, 0⟩, ⟨⟨-1, 0, 0⟩, 0⟩,
    ⟨⟨48 / 100, 6 / 10, 64 / 100⟩, -24 / 10⟩] := by
  rw [axisHull_equations 0 (k := 125 / 4) (by norm_num) (by norm_num) (by norm_num) (by norm_num) (by norm_num)]
  norm_num

theorem slant_faithful : Spec.HullFaithful slantScipy := by
  intro vs H h
  simp only [slantScipy] at h
  split at h
  · rename_i hv
    cases h
    rw [hv]; exact axisHull_isHull 0 (by norm_num) (by norm_num) (by norm_num)
  · split at h
    · rename_i hv
      cases h
      rw [hv]; exact axisHull_isHull 0 (by norm_num) (by norm_num) (by norm_num)
    · cases h

theorem slant_decimals : ∀ H, slantScipy.convexHull (cornerPts 0 10 8 (15 / 2)) = .ok H → ∀ e ∈ H.equations,
    ∃ a b c d : ℤ, e = ⟨⟨a / 10 ^ 6, b / 10 ^ 6, c / 10 ^ 6⟩, d / 10 ^ 6⟩ := by
  intro H h e he
  simp only [slantScipy, if_true, Except.ok.injEq] at h
  rw [← h, slant_big] at he
  simp only [List.mem_cons, List.not_mem_nil, or_false] at he
  rcases he with rfl | rfl | rfl | rfl
  · exact ⟨0, 0, -1000000, 0, by norm_num⟩
  · exact ⟨0, -1000000, 0, 0, by norm_num⟩
  · exact ⟨-1000000, 0, 0, 0, by norm_num⟩
  · exact ⟨480000, 600000, 640000, -4800000, by norm_num⟩

theorem round6_whole (n : ℤ) : round6 ((n : ℝ) / 10 ^ 6) = n / 10 ^ 6 := by
  unfold round6
  rw [div_mul_cancel₀ _ (by norm_num)]
  have : roundEven (n : ℝ) = n := by unfold roundEven; simp
  rw [this]

theorem slant_combined (x : V3) : (∀ e ∈ slantBeam.combined (axisHull 0 10 8 (15 / 2)), e.n.dot x + e.d ≤ 0) ↔
    ∀ e ∈ (axisHull 0 5 4 (15 / 4)).equations, e.n.dot x + e.d ≤ 0 := by
  have hr : ∀ e ∈ (axisHull 0 10 8 (15 / 2)).equations, e.round6 = e := by
    intro e he
    obtain ⟨a, b, c, d, rfl⟩ := slant_decimals _ (by simp [slantScipy]) e he
    simp only [HalfSpace.round6, round6_whole]
  have : (∀ e ∈ slantBeam.combined (axisHull 0 10 8 (15 / 2)), e.n.dot x + e.d ≤ 0) ↔
      (∀ e ∈ (axisHull 0 10 8 (15 / 2)).equations, e.n.dot x + e.d ≤ 0) ∧ ∀ e ∈ slantBeam.halfspaces, e.n.dot x + e.d ≤ 0 := by
    constructor
    · intro h
      exact ⟨fun e he => h e ((mem_combined _ _ _).2 (.inl ⟨e, he, hr e he⟩)), fun e he => h e ((mem_combined _ _ _).2 (.inr he))⟩
    · rintro ⟨h1, h2⟩ e he
      rcases (mem_combined _ _ _).1 he with ⟨e', he', rfl⟩ | h
      · rw [hr e' he']; exact h1 e' he'
      · exact h2 e h
  rw [this, slant_big, slant_small]
  simp only [slantBeam, List.forall_mem_cons, List.not_mem_nil, false_imp_iff, implies_true, and_true, V3.dot]
  constructor
  · rintro ⟨⟨h1, h2, h3, h4⟩, h5, h6, h7, h8⟩
    exact ⟨h1, h2, h3, h5⟩
  · rintro ⟨h1, h2, h3, h4⟩
    refine ⟨⟨h1, h2, h3, by linarith⟩, h4, by linarith, by linarith, by linarith⟩

theorem slant_halfspace : Spec.HalfspaceFaithful slantScipy := by
  intro hs p pts _ _ h x
  simp only [slantScipy] at h
  split at h
  · rename_i hc
    obtain ⟨rfl, -⟩ := hc
    cases h
    rw [← (axisHull_isHull 0 (a := 5) (b := 4) (c := 15 / 4) (by norm_num) (by norm_num) (by norm_num)).faces x]
    exact (slant_combined x).symm
  · cases h

/-- Here the corner of the tetrahedron is cut off, starting from its vertex at the origin shrunk by one percent; so the hypotheses
of `C70_region` and `C57_interior_six_decimals` hold where something is cut. -/
theorem slant_intersect : slantBeam.intersect slantScipy (cornerPts 0 10 8 (15 / 2)) = .ok (some (axisHull 0 5 4 (15 / 4))) := by
  have hmean : meanV (cornerPts 0 10 8 (15 / 2)) = ⟨5 / 2, 2, 15 / 8⟩ := by
    simp only [meanV, cornerPts, List.length_cons, List.length_nil, List.sum_cons, List.sum_nil]
    ext <;> simp <;> norm_num
  have hcont : ∀ p : V3, slantBeam.contains p ↔ 48 / 100 * p.x + 6 / 10 * p.y + 64 / 100 * p.z < 24 / 10 ∧ -100 < p.x ∧ -100 < p.y ∧ -100 < p.z := by
    intro p
    simp only [Beam.contains, slantBeam, List.forall_mem_cons, List.not_mem_nil, false_imp_iff, implies_true, and_true, V3.dot]
    constructor
    · rintro ⟨h1, h2, h3, h4⟩; exact ⟨by linarith, by linarith, by linarith, by linarith⟩
    · rintro ⟨h1, h2, h3, h4⟩; exact ⟨by linarith, by linarith, by linarith, by linarith⟩
  have hall : ¬ ∀ v ∈ cornerPts 0 10 8 (15 / 2), slantBeam.contains v := by
    intro h
    have := (hcont _).1 (h (0 + ⟨10, 0, 0⟩) (by simp [cornerPts]))
    norm_num at this
  have hcen : ¬ slantBeam.contains (⟨5 / 2, 2, 15 / 8⟩ : V3) := by
    rw [hcont]; norm_num
  have h0 : slantBeam.contains ((⟨5 / 2, 2, 15 / 8⟩ : V3) + (99 / 100 : ℝ) • (0 - (⟨5 / 2, 2, 15 / 8⟩ : V3))) := by
    rw [hcont]
    simp only [add_x, add_y, add_z, smul_x, smul_y, smul_z, sub_x, sub_y, sub_z, zero_x, zero_y, zero_z]; norm_num
  have hip : slantBeam.interiorPoint slantScipy (axisHull 0 10 8 (15 / 2)) (cornerPts 0 10 8 (15 / 2))
      = .ok (some ((⟨5 / 2, 2, 15 / 8⟩ : V3) + (99 / 100 : ℝ) • (0 - (⟨5 / 2, 2, 15 / 8⟩ : V3)))) := by
    unfold Beam.interiorPoint
    rw [hmean]
    dsimp only
    rw [if_neg hcen]
    rw [show cornerPts 0 10 8 (15 / 2) = 0 :: [0 + ⟨10, 0, 0⟩, 0 + ⟨0, 8, 0⟩, 0 + ⟨0, 0, 15 / 2⟩] from rfl, List.map_cons,
      List.find?_cons_of_pos (by simpa using h0)]
  have hstr : Spec.StrictlyInside (slantBeam.combined (axisHull 0 10 8 (15 / 2)))
      ((⟨5 / 2, 2, 15 / 8⟩ : V3) + (99 / 100 : ℝ) • (0 - (⟨5 / 2, 2, 15 / 8⟩ : V3))) := by
    have hr : ∀ e ∈ (axisHull 0 10 8 (15 / 2)).equations, e.round6 = e := by
      intro e he
      obtain ⟨a, b, c, d, rfl⟩ := slant_decimals _ (by simp [slantScipy]) e he
      simp only [HalfSpace.round6, round6_whole]
    intro e he
    rcases (mem_combined _ _ _).1 he with ⟨e', he', rfl⟩ | h
    · rw [hr e' he']
      rw [slant_big] at he'
      simp only [List.mem_cons, List.not_mem_nil, or_false] at he'
      rcases he' with rfl | rfl | rfl | rfl <;> simp [V3.dot] <;> norm_num
    · exact h0 e h
  have hne : cornerPts 0 5 4 (15 / 4) ≠ cornerPts 0 10 8 (15 / 2) := by
    intro h
    simp only [cornerPts, List.cons.injEq] at h
    have := congrArg V3.x h.2.1
    norm_num at this
  unfold Beam.intersect
  rw [if_neg hall]
  have e1 : slantScipy.convexHull (cornerPts 0 10 8 (15 / 2)) = .ok (axisHull 0 10 8 (15 / 2)) := by simp [slantScipy]
  have e2 : slantScipy.convexHull (cornerPts 0 5 4 (15 / 4)) = .ok (axisHull 0 5 4 (15 / 4)) := by simp [slantScipy, hne]
  have e3 : slantScipy.halfspaceIntersection (slantBeam.combined (axisHull 0 10 8 (15 / 2)))
      ((⟨5 / 2, 2, 15 / 8⟩ : V3) + (99 / 100 : ℝ) • (0 - (⟨5 / 2, 2, 15 / 8⟩ : V3))) = .ok (cornerPts 0 5 4 (15 / 4)) := by
    simp only [slantScipy]
    rw [if_pos ⟨trivial, hstr⟩]
  simp only [e1, hip, e3, e2]

/-- `C70_region` on that beam: the returned region is the cut-off corner. -/
example (x : V3) : Spec.Inside (axisHull 0 5 4 (15 / 4)).equations x ↔
    x ∈ convexHull ℝ {v | v ∈ cornerPts 0 10 8 (15 / 2)} ∧ Spec.Inside slantBeam.halfspaces x :=
  C70_region slantScipy slantBeam _ slant_faithful slant_halfspace slant_decimals _ slant_intersect x

/-- `C57_interior_margin` applies to that tetrahedron with `M = 11`: its mean vertex is at least one unit deep. -/
example (S' : Scipy) (h1 : S'.convexHull = slantScipy.convexHull) (h2 : S'.linprog = slantScipy.linprog)
    (h3 : ∀ hs p, Spec.StrictlyInside hs p → Spec.StrictlyInside slantBeam.halfspaces p →
      S'.halfspaceIntersection hs p = slantScipy.halfspaceIntersection hs p) :
    slantBeam.intersect S' (cornerPts 0 10 8 (15 / 2)) = slantBeam.intersect slantScipy (cornerPts 0 10 8 (15 / 2)) := by
  refine C57_interior_margin slantScipy S' slantBeam _ slant_faithful h1 h2 11 ?_ ?_ h3
  · intro v hv
    simp only [cornerPts, List.mem_cons, List.not_mem_nil, or_false] at hv
    rcases hv with rfl | rfl | rfl | rfl <;> norm_num
  · intro H hH e he
    have hmean : meanV (cornerPts 0 10 8 (15 / 2)) = ⟨5 / 2, 2, 15 / 8⟩ := by
      simp only [meanV, cornerPts, List.length_cons, List.length_nil, List.sum_cons, List.sum_nil]
      ext <;> simp <;> norm_num
    simp only [slantScipy, if_true, Except.ok.injEq] at hH
    rw [← hH, slant_big] at he
    rw [hmean]
    simp only [List.mem_cons, List.not_mem_nil, or_false] at he
    rcases he with rfl | rfl | rfl | rfl <;> norm_num [V3.dot]

/-- The assumption on the beam intersection under which macro rendering is studied (`Spec.BeamHull`) is a consequence of a faithful
qhull that accepts every solid polyhedron. -/
theorem beamHull_of_intersect (S : Scipy) (hS : Spec.HullFaithful S) (hok : ∀ vs, vs.length = 4 → Spec.Solid vs → ∃ H, S.convexHull vs = .ok H) :
    Spec.BeamHull fun b vs => match b.intersect S vs with
      | .ok o => o
      | .error _ => none := by
  intro b vs hl hin hsol
  obtain ⟨H, hH⟩ := hok vs hl hsol
  refine ⟨H, ?_, hS vs H hH⟩
  beta_reduce
  rw [C57_contained S b vs hin, hH]
  rfl

/-! ### Rounded facets -/

/-- Six decimals of `1/√3`. -/
theorem round6_third : round6 (1 / Real.sqrt 3) = 577350 / 10 ^ 6 := by
  have h3 : Real.sqrt 3 ^ 2 = 3 := Real.sq_sqrt (by norm_num)
  have hp : 0 < Real.sqrt 3 := by positivity
  have l1 : Real.sqrt 3 < 10 ^ 6 / 577350 := by
    apply lt_of_pow_lt_pow_left₀ 2 (by norm_num); rw [h3]; norm_num
  have l2 : 10 ^ 6 / (577350 + 1 / 2) < Real.sqrt 3 := by
    apply lt_of_pow_lt_pow_left₀ 2 hp.le; rw [h3]; norm_num
  have k1 : (577350 : ℝ) < 1 / Real.sqrt 3 * 10 ^ 6 := by
    rw [div_mul_eq_mul_div, lt_div_iff₀ hp, _root_.one_mul]
    rw [lt_div_iff₀ (by norm_num)] at l1; linarith
  have k2 : 1 / Real.sqrt 3 * 10 ^ 6 < 577350 + 1 / 2 := by
    rw [div_mul_eq_mul_div, div_lt_iff₀ hp, _root_.one_mul]
    rw [div_lt_iff₀ (by norm_num)] at l2; linarith
  have hfl : ⌊1 / Real.sqrt 3 * 10 ^ 6⌋ = 577350 := by
    rw [Int.floor_eq_iff]; push_cast; constructor <;> linarith
  unfold round6 roundEven
  rw [hfl, if_pos (by push_cast; linarith)]
  norm_num

/-- a beam whose edge lies at `x = -999.91` -/
noncomputable def edgeBeam : Beam :=
  ⟨⟨0, 1, 0⟩, 1, [], 0, [⟨⟨-1, 0, 0⟩, -1000 + 9 / 100⟩, ⟨⟨1, 0, 0⟩, -2000⟩, ⟨⟨0, -1, 0⟩, -2000⟩, ⟨⟨0, 1, 0⟩, -2000⟩,
    ⟨⟨0, 0, -1⟩, -2000⟩, ⟨⟨0, 0, 1⟩, -2000⟩], ⟨0, 0, 1⟩⟩

/-- an element of edge length 0.1 at one millimetre from the origin in each coordinate -/
noncomputable def smallTetra : List V3 := cornerPts ⟨-1000, -1000, -1000⟩ (1 / 10) (1 / 10) (1 / 10)

/-- qhull, which raises an error if the point is not clearly inside the half-spaces -/
noncomputable def strictScipy : Scipy where
  convexHull := fun vs => if vs = smallTetra then .ok (axisHull ⟨-1000, -1000, -1000⟩ (1 / 10) (1 / 10) (1 / 10)) else .error .runtimeError
  halfspaceIntersection := fun hs p => if Spec.StrictlyInside hs p then .ok [] else .error .runtimeError
  linprog := fun _ => none

/-- **C57 fails** as stated: for this element the facets are rounded past the interior point, the half-space intersection is asked to start from
a point outside the half-spaces, and with qhull, which refuses such points, the call raises although beam and element overlap. -/
theorem C57_rounding_fails : Spec.HullFaithful strictScipy ∧
    (∃ q, edgeBeam.contains q ∧ Spec.StrictlyInside (axisHull ⟨-1000, -1000, -1000⟩ (1 / 10) (1 / 10) (1 / 10)).equations q) ∧
    (∀ hs p, ¬ Spec.StrictlyInside hs p → strictScipy.halfspaceIntersection hs p = .error .runtimeError) ∧
    edgeBeam.intersect strictScipy smallTetra = .error .runtimeError := by
  have hk : (0 : ℝ) < Real.sqrt 3 / 100 := by positivity
  have hk2 : (Real.sqrt 3 / 100) ^ 2 = (1 / 10 * (1 / 10)) ^ 2 + (1 / 10 * (1 / 10)) ^ 2 + (1 / 10 * (1 / 10)) ^ 2 := by
    rw [div_pow, Real.sq_sqrt (by norm_num)]; norm_num
  have h3 : Real.sqrt 3 ^ 2 = 3 := Real.sq_sqrt (by norm_num)
  have hp3 : 0 < Real.sqrt 3 := by positivity
  have hq : (1 / 10 * (1 / 10) / (Real.sqrt 3 / 100) : ℝ) = 1 / Real.sqrt 3 := by field_simp; norm_num
  have heq := axisHull_equations ⟨-1000, -1000, -1000⟩ (a := 1 / 10) (b := 1 / 10) (c := 1 / 10) (by norm_num) (by norm_num) (by norm_num) hk hk2
  rw [hq] at heq
  have hH : Spec.IsHull (axisHull ⟨-1000, -1000, -1000⟩ (1 / 10) (1 / 10) (1 / 10)) smallTetra :=
    axisHull_isHull _ (by norm_num) (by norm_num) (by norm_num)
  have hf : Spec.HullFaithful strictScipy := by
    intro vs H h
    simp only [strictScipy] at h
    split at h
    · rename_i hv
      cases h
      rw [hv]; exact hH
    · cases h
  have hmean : meanV smallTetra = ⟨-1000 + 1 / 40, -1000 + 1 / 40, -1000 + 1 / 40⟩ := by
    simp only [meanV, smallTetra, cornerPts, List.length_cons, List.length_nil, List.sum_cons, List.sum_nil]
    ext <;> simp <;> norm_num
  have hcont : ∀ p : V3, edgeBeam.contains p ↔ -1000 + 9 / 100 < p.x ∧ p.x < 2000 ∧ -2000 < p.y ∧ p.y < 2000 ∧ -2000 < p.z ∧ p.z < 2000 := by
    intro p
    simp only [Beam.contains, edgeBeam, List.forall_mem_cons, List.not_mem_nil, false_imp_iff, implies_true, and_true, V3.dot]
    constructor
    · rintro ⟨h1, h2, h3, h4, h5, h6⟩; exact ⟨by linarith, by linarith, by linarith, by linarith, by linarith, by linarith⟩
    · rintro ⟨h1, h2, h3, h4, h5, h6⟩; exact ⟨by linarith, by linarith, by linarith, by linarith, by linarith, by linarith⟩
  set t : V3 := ⟨-1000 + 9925 / 100000, -1000 + 25 / 100000, -1000 + 25 / 100000⟩ with ht
  have hvs : smallTetra.map (fun v => (⟨-1000 + 1 / 40, -1000 + 1 / 40, -1000 + 1 / 40⟩ : V3) + (99 / 100 : ℝ) • (v - (⟨-1000 + 1 / 40, -1000 + 1 / 40, -1000 + 1 / 40⟩ : V3)))
      = [⟨-1000 + 25 / 100000, -1000 + 25 / 100000, -1000 + 25 / 100000⟩, t, ⟨-1000 + 25 / 100000, -1000 + 9925 / 100000, -1000 + 25 / 100000⟩,
        ⟨-1000 + 25 / 100000, -1000 + 25 / 100000, -1000 + 9925 / 100000⟩] := by
    simp only [smallTetra, cornerPts, List.map_cons, List.map_nil, ht, List.cons.injEq, and_true]
    refine ⟨?_, ?_, ?_, ?_⟩ <;> ext <;> simp <;> norm_num
  have hip : edgeBeam.interiorPoint strictScipy (axisHull ⟨-1000, -1000, -1000⟩ (1 / 10) (1 / 10) (1 / 10)) smallTetra = .ok (some t) := by
    unfold Beam.interiorPoint
    rw [hmean]
    dsimp only
    rw [if_neg (by rw [hcont]; norm_num), hvs, List.find?_cons_of_neg (by simp only [decide_eq_true_eq]; rw [hcont]; norm_num),
      List.find?_cons_of_pos (by simp only [decide_eq_true_eq]; rw [hcont, ht]; norm_num)]
  have hct : edgeBeam.contains t := by rw [hcont, ht]; norm_num
  have hin : Spec.StrictlyInside (axisHull ⟨-1000, -1000, -1000⟩ (1 / 10) (1 / 10) (1 / 10)).equations t := by
    have := interiorPoint_sound hH hip
    have hv : t = meanV smallTetra + (99 / 100 : ℝ) • ((⟨-1000, -1000, -1000⟩ + ⟨1 / 10, 0, 0⟩ : V3) - meanV smallTetra) := by
      rw [hmean, ht]; ext <;> simp <;> norm_num
    rw [hv]
    exact hull_shrunk hH (by simp [smallTetra, cornerPts])
  refine ⟨hf, ⟨t, hct, hin⟩, fun hs p h => by simp only [strictScipy]; rw [if_neg h], ?_⟩
  have hout : ¬ Spec.StrictlyInside (edgeBeam.combined (axisHull ⟨-1000, -1000, -1000⟩ (1 / 10) (1 / 10) (1 / 10))) t := by
    intro h
    have hmem : (⟨⟨1 / Real.sqrt 3, 1 / Real.sqrt 3, 1 / Real.sqrt 3⟩, -(1 / Real.sqrt 3 * (-1000 + 1 / 10) + 1 / Real.sqrt 3 * -1000 + 1 / Real.sqrt 3 * -1000)⟩ : HalfSpace)
        ∈ (axisHull ⟨-1000, -1000, -1000⟩ (1 / 10) (1 / 10) (1 / 10)).equations := by
      rw [heq]; simp
    have := h _ ((mem_combined _ _ _).2 (.inl ⟨_, hmem, rfl⟩))
    simp only [HalfSpace.round6, round6_third, V3.dot, ht] at this
    have he := abs_le.1 (round6_error (-(1 / Real.sqrt 3 * (-1000 + 1 / 10) + 1 / Real.sqrt 3 * -1000 + 1 / Real.sqrt 3 * -1000)))
    have l1 : (57735026 / 10 ^ 8 : ℝ) < 1 / Real.sqrt 3 := by
      rw [lt_div_iff₀ hp3]
      have : Real.sqrt 3 < 10 ^ 8 / 57735026 := by
        apply lt_of_pow_lt_pow_left₀ 2 (by norm_num); rw [h3]; norm_num
      rw [lt_div_iff₀ (by norm_num)] at this; linarith
    generalize round6 (-(1 / Real.sqrt 3 * (-1000 + 1 / 10) + 1 / Real.sqrt 3 * -1000 + 1 / Real.sqrt 3 * -1000)) = r at this he
    norm_num at this he l1
    linarith
  have hall : ¬ ∀ v ∈ smallTetra, edgeBeam.contains v := by
    intro h
    have := (hcont _).1 (h ⟨-1000, -1000, -1000⟩ (by simp [smallTetra, cornerPts]))
    norm_num at this
  unfold Beam.intersect
  rw [if_neg hall]
  have e1 : strictScipy.convexHull smallTetra = .ok (axisHull ⟨-1000, -1000, -1000⟩ (1 / 10) (1 / 10) (1 / 10)) := by simp [strictScipy]
  have e2 : strictScipy.halfspaceIntersection (edgeBeam.combined (axisHull ⟨-1000, -1000, -1000⟩ (1 / 10) (1 / 10) (1 / 10))) t = .error .runtimeError := by
    simp only [strictScipy]; rw [if_neg hout]
  simp only [e1, hip, e2]

/-! ### A solver answer on one facet -/

theorem gram_same (rows : List HalfSpace) (n : V3) (h : ∀ r ∈ rows, r.n = n) :
    ∃ k : ℝ, gram rows = k • (⟨n.x • n, n.y • n, n.z • n⟩ : M3) := by
  induction rows with
  | nil => exact ⟨0, by ext <;> simp [gram]⟩
  | cons a t ih =>
    obtain ⟨k, hk⟩ := ih fun r hr => h r (List.mem_cons_of_mem _ hr)
    refine ⟨k + 1, ?_⟩
    have : gram (a :: t) = (⟨a.n.x • a.n, a.n.y • a.n, a.n.z • a.n⟩ : M3) + gram t := rfl
    rw [this, hk, h a (by simp)]
    ext <;> simp <;> ring

theorem gram_same_det (rows : List HalfSpace) (n : V3) (h : ∀ r ∈ rows, r.n = n) : (gram rows).det = 0 := by
  obtain ⟨k, hk⟩ := gram_same rows n h
  rw [hk]
  simp only [M3.det, smul_r0, smul_r1, smul_r2, smul_x, smul_y, smul_z]
  ring

/-- a slit: `4 < x < 5` -/
noncomputable def slitBeam : Beam :=
  ⟨⟨0, 1, 0⟩, 1, [], 0, [⟨⟨-1, 0, 0⟩, 4⟩, ⟨⟨1, 0, 0⟩, -5⟩, ⟨⟨0, -1, 0⟩, -100⟩, ⟨⟨0, 1, 0⟩, -100⟩,
    ⟨⟨0, 0, -1⟩, -100⟩, ⟨⟨0, 0, 1⟩, -100⟩], ⟨0, 0, 1⟩⟩

/-- The solver returns the feasible point `(4.5, 0, 1)`, on one facet of the tetrahedron, with the correct slacks. -/
noncomputable def facetScipy : Scipy where
  convexHull := fun vs => if vs = cornerPts 0 10 8 (15 / 2) then .ok (axisHull 0 10 8 (15 / 2)) else .error .runtimeError
  halfspaceIntersection := fun _ _ => .ok []
  linprog := fun hs => if Spec.Inside hs ⟨9 / 2, 0, 1⟩ then some ⟨⟨9 / 2, 0, 1⟩, hs.map fun h => -h.d - h.n.dot ⟨9 / 2, 0, 1⟩⟩ else none

/-- **C57 fails** for a correct solver answer that lies on a single facet: the system that should push it inwards is singular and
the call raises although beam and polyhedron overlap. -/
theorem C57_singular_fails : Spec.HullFaithful facetScipy ∧
    (∀ hs r, facetScipy.linprog hs = some r → Spec.Inside hs r.x ∧ r.slack = hs.map fun h => -h.d - h.n.dot r.x) ∧
    (∃ q, slitBeam.contains q ∧ Spec.StrictlyInside (axisHull 0 10 8 (15 / 2)).equations q) ∧
    slitBeam.intersect facetScipy (cornerPts 0 10 8 (15 / 2)) = .error .valueError := by
  have hH : Spec.IsHull (axisHull 0 10 8 (15 / 2)) (cornerPts 0 10 8 (15 / 2)) :=
    axisHull_isHull 0 (by norm_num) (by norm_num) (by norm_num)
  have hcont : ∀ p : V3, slitBeam.contains p ↔ 4 < p.x ∧ p.x < 5 ∧ -100 < p.y ∧ p.y < 100 ∧ -100 < p.z ∧ p.z < 100 := by
    intro p
    simp only [Beam.contains, slitBeam, List.forall_mem_cons, List.not_mem_nil, false_imp_iff, implies_true, and_true, V3.dot]
    constructor
    · rintro ⟨h1, h2, h3, h4, h5, h6⟩; exact ⟨by linarith, by linarith, by linarith, by linarith, by linarith, by linarith⟩
    · rintro ⟨h1, h2, h3, h4, h5, h6⟩; exact ⟨by linarith, by linarith, by linarith, by linarith, by linarith, by linarith⟩
  have hr : ∀ e ∈ (axisHull 0 10 8 (15 / 2)).equations, e.round6 = e := by
    intro e he
    obtain ⟨a, b, c, d, rfl⟩ := slant_decimals _ (by simp [slantScipy]) e he
    simp only [HalfSpace.round6, round6_whole]
  have hmean : meanV (cornerPts 0 10 8 (15 / 2)) = ⟨5 / 2, 2, 15 / 8⟩ := by
    simp only [meanV, cornerPts, List.length_cons, List.length_nil, List.sum_cons, List.sum_nil]
    ext <;> simp <;> norm_num
  refine ⟨?_, ?_, ⟨⟨9 / 2, 1, 1⟩, ?_, ?_⟩, ?_⟩
  · intro vs H h
    simp only [facetScipy] at h
    split at h
    · rename_i hv
      cases h
      rw [hv]; exact hH
    · cases h
  · intro hs r h
    simp only [facetScipy] at h
    split at h
    · rename_i hin
      cases h
      exact ⟨hin, rfl⟩
    · cases h
  · rw [hcont]; norm_num
  · intro e he
    rw [slant_big] at he
    simp only [List.mem_cons, List.not_mem_nil, or_false] at he
    rcases he with rfl | rfl | rfl | rfl <;> simp [V3.dot] <;> norm_num
  have hrows : ∀ e ∈ slitBeam.combined (axisHull 0 10 8 (15 / 2)),
      e.n.dot ⟨9 / 2, 0, 1⟩ + e.d < 0 ∨ (e = ⟨⟨0, -1, 0⟩, 0⟩) := by
    intro e he
    rcases (mem_combined _ _ _).1 he with ⟨e', he', rfl⟩ | h
    · rw [hr e' he']
      rw [slant_big] at he'
      simp only [List.mem_cons, List.not_mem_nil, or_false] at he'
      rcases he' with rfl | rfl | rfl | rfl
      · left; norm_num [V3.dot]
      · right; rfl
      · left; norm_num [V3.dot]
      · left; norm_num [V3.dot]
    · left
      simp only [slitBeam, List.mem_cons, List.not_mem_nil, or_false] at h
      rcases h with rfl | rfl | rfl | rfl | rfl | rfl <;> norm_num [V3.dot]
  have hinside : Spec.Inside (slitBeam.combined (axisHull 0 10 8 (15 / 2))) ⟨9 / 2, 0, 1⟩ := by
    intro e he
    rcases hrows e he with h | rfl
    · exact h.le
    · simp [V3.dot]
  have hmemf : (⟨⟨0, -1, 0⟩, 0⟩ : HalfSpace) ∈ slitBeam.combined (axisHull 0 10 8 (15 / 2)) := by
    refine (mem_combined _ _ _).2 (.inl ⟨⟨⟨0, -1, 0⟩, 0⟩, ?_, ?_⟩)
    · rw [slant_big]; simp
    · exact hr _ (by rw [slant_big]; simp)
  have hff : findFeasible facetScipy (slitBeam.combined (axisHull 0 10 8 (15 / 2))) = .error .valueError := by
    generalize slitBeam.combined (axisHull 0 10 8 (15 / 2)) = hs at hrows hinside hmemf
    have hlp : facetScipy.linprog hs = some ⟨⟨9 / 2, 0, 1⟩, hs.map fun h => -h.d - h.n.dot ⟨9 / 2, 0, 1⟩⟩ := by
      simp only [facetScipy]; rw [if_pos hinside]
    unfold findFeasible
    rw [hlp]
    dsimp only
    rw [if_pos ⟨0, List.mem_map.2 ⟨_, hmemf, by simp [V3.dot]⟩, rfl⟩]
    have hdet : (gram (activeRows hs (hs.map fun h => -h.d - h.n.dot ⟨9 / 2, 0, 1⟩))).det = 0 := by
      apply gram_same_det _ ⟨0, -1, 0⟩
      intro r hr'
      unfold activeRows at hr'
      obtain ⟨p, hp, hpe⟩ := List.mem_filterMap.1 hr'
      split at hpe
      · rename_i hz
        cases hpe
        have hzip : hs.zip (hs.map fun h => -h.d - h.n.dot ⟨9 / 2, 0, 1⟩) = hs.map fun h => (h, -h.d - h.n.dot ⟨9 / 2, 0, 1⟩) := by
          clear hrows hinside hmemf hlp hr' hp hz
          induction hs with
          | nil => rfl
          | cons a t ih => simp [ih]
        rw [hzip] at hp
        obtain ⟨e, he, rfl⟩ := List.mem_map.1 hp
        rcases hrows e he with h | rfl
        · exfalso; dsimp only at hz; linarith
        · rfl
      · cases hpe
    unfold solve3
    rw [if_pos hdet]
  have hall : ¬ ∀ v ∈ cornerPts 0 10 8 (15 / 2), slitBeam.contains v := by
    intro h
    have := (hcont _).1 (h 0 (by simp [cornerPts]))
    norm_num at this
  have hip : slitBeam.interiorPoint facetScipy (axisHull 0 10 8 (15 / 2)) (cornerPts 0 10 8 (15 / 2)) = .error .valueError := by
    unfold Beam.interiorPoint
    rw [hmean]
    dsimp only
    rw [if_neg (by rw [hcont]; norm_num)]
    have : ((cornerPts 0 10 8 (15 / 2)).map fun v => (⟨5 / 2, 2, 15 / 8⟩ : V3) + (99 / 100 : ℝ) • (v - ⟨5 / 2, 2, 15 / 8⟩)).find?
        (fun t => decide (slitBeam.contains t)) = none := by
      rw [List.find?_eq_none]
      intro t ht
      obtain ⟨v, hv, rfl⟩ := List.mem_map.1 ht
      simp only [decide_eq_true_eq]
      rw [hcont]
      simp only [cornerPts, List.mem_cons, List.not_mem_nil, or_false] at hv
      rcases hv with rfl | rfl | rfl | rfl <;> simp <;> norm_num
    rw [this]
    exact hff
  unfold Beam.intersect
  rw [if_neg hall]
  have e1 : facetScipy.convexHull (cornerPts 0 10 8 (15 / 2)) = .ok (axisHull 0 10 8 (15 / 2)) := by simp [facetScipy]
  simp only [e1, hip]

end XRD
