import Verif.Props.IntersectFails

/-! C57, continued: how `Beam._find_feasible_point` moves the answer of the solver off the facets it touches. -/

namespace XRD
open V3 M3
open scoped Classical

/-- the half-spaces whose boundary the point is on -/
noncomputable def Spec.touching (hs : List HalfSpace) (x : V3) : List HalfSpace := hs.filter fun e => e.n.dot x + e.d = 0

/-- by how much a point misses lying `10⁻⁵` inside every one of the half-spaces: sum of squares -/
noncomputable def Spec.depthError (es : List HalfSpace) (p : V3) : ℝ := (es.map fun e => (e.n.dot p + e.d + 1 / 10 ^ 5) ^ 2).sum

theorem activeRows_eq (hs : List HalfSpace) (x : V3) :
    activeRows hs (hs.map fun h => -h.d - h.n.dot x) = Spec.touching hs x := by
  unfold activeRows Spec.touching
  induction hs with
  | nil => rfl
  | cons a t ih =>
    rw [List.map_cons, List.zip_cons_cons, List.filterMap_cons, List.filter_cons, ih]
    dsimp only
    by_cases h : a.n.dot x + a.d = 0
    · rw [if_pos (by linarith)]; simp [h]
    · rw [if_neg (fun h' => h (by linarith))]; simp [h]

theorem gram_mulVec (rows : List HalfSpace) (y z : V3) : ((gram rows).mulVec y).dot z = (rows.map fun h => h.n.dot y * h.n.dot z).sum := by
  unfold gram
  induction rows with
  | nil => simp [mulVec, V3.dot]
  | cons a t ih =>
    rw [List.map_cons, List.map_cons, List.foldr_cons, List.sum_cons, ← ih]
    simp only [mulVec, V3.dot]
    simp
    ring

theorem gramRhs_dot (rows : List HalfSpace) (z : V3) : (gramRhs rows).dot z = (rows.map fun h => -(1 / 10 ^ 5) * h.n.dot z).sum := by
  unfold gramRhs
  induction rows with
  | nil => simp [V3.dot]
  | cons a t ih =>
    rw [List.map_cons, List.map_cons, List.sum_cons, List.sum_cons, ← ih]
    simp only [V3.dot]
    simp
    ring

theorem gram_symm_det (rows : List HalfSpace) (h : (gram rows).det ≠ 0) (y : V3) (hy : ∀ z, ((gram rows).mulVec y).dot z = (gramRhs rows).dot z) :
    solve3 (gram rows) (gramRhs rows) = .ok y := by
  have : (gram rows).mulVec y = gramRhs rows := by
    ext
    · have := hy ⟨1, 0, 0⟩; simpa [V3.dot] using this
    · have := hy ⟨0, 1, 0⟩; simpa [V3.dot] using this
    · have := hy ⟨0, 0, 1⟩; simpa [V3.dot] using this
  unfold solve3
  rw [if_neg h, ← this, ← mulVec_mul, M3.inv_mul h, one_mulVec]

/-- C57: for every correct answer of the solver, the point returned is either the solver's point, which then touches no facet, or the
point closest (in the sum of squares) to lying `10⁻⁵` inside every facet the solver's point touches. -/
theorem C57_moved_off_the_facets (S : Scipy) (hs : List HalfSpace) (r : LpAnswer) (h : S.linprog hs = some r)
    (hslack : r.slack = hs.map fun e => -e.d - e.n.dot r.x) (p : V3) (hp : findFeasible S hs = .ok (some p)) :
    (Spec.touching hs r.x = [] ∧ p = r.x) ∨
    (Spec.touching hs r.x ≠ [] ∧ ∀ q, Spec.depthError (Spec.touching hs r.x) p ≤ Spec.depthError (Spec.touching hs r.x) q) := by
  unfold findFeasible at hp
  rw [h] at hp
  dsimp only at hp
  rw [hslack, activeRows_eq] at hp
  have hex : (∃ s ∈ hs.map fun e => -e.d - e.n.dot r.x, s = 0) ↔ Spec.touching hs r.x ≠ [] := by
    unfold Spec.touching
    rw [Ne, List.filter_eq_nil_iff]
    simp only [List.mem_map, exists_exists_and_eq_and, decide_eq_true_eq, not_forall, not_not, exists_prop]
    refine exists_congr fun e => and_congr_right fun _ => ⟨fun g => by linarith, fun g => by linarith⟩
  by_cases he : ∃ s ∈ hs.map fun e => -e.d - e.n.dot r.x, s = 0
  · right
    rw [if_pos he] at hp
    refine ⟨hex.mp he, fun q => ?_⟩
    set A := Spec.touching hs r.x with hA
    unfold solve3 at hp
    by_cases hd : (gram A).det = 0
    · rw [if_pos hd] at hp; cases hp
    · rw [if_neg hd] at hp
      dsimp only at hp
      split_ifs at hp
      · have hp := Option.some.inj (Except.ok.inj hp)
        set dx := (gram A).inv.mulVec (gramRhs A) with hdx
        have hg : (gram A).mulVec dx = gramRhs A := by rw [hdx, ← mulVec_mul, M3.mul_inv hd, one_mulVec]
        have hz : ∀ e ∈ A, e.n.dot r.x + e.d = 0 := by
          intro e he'
          have := (List.mem_filter.mp he').2
          simpa using this
        have k1 : Spec.depthError A q = Spec.depthError A p + (A.map fun e => (e.n.dot (q - p)) ^ 2).sum := by
          have horth : (A.map fun e => e.n.dot dx * e.n.dot (q - p)).sum = (A.map fun e => -(1 / 10 ^ 5) * e.n.dot (q - p)).sum := by
            rw [← gram_mulVec, ← gramRhs_dot, hg]
          have hrow : ∀ e ∈ A, (e.n.dot q + e.d + 1 / 10 ^ 5) ^ 2 = (e.n.dot p + e.d + 1 / 10 ^ 5) ^ 2 +
              (2 * (e.n.dot dx * e.n.dot (q - p)) - 2 * (-(1 / 10 ^ 5) * e.n.dot (q - p)) + (e.n.dot (q - p)) ^ 2) := by
            intro e he'
            have h0 := hz e he'
            have h1 : e.n.dot p = e.n.dot r.x + e.n.dot dx := by rw [← hp]; simp only [V3.dot, add_x, add_y, add_z]; ring
            have h2 : e.n.dot q = e.n.dot p + e.n.dot (q - p) := by simp only [V3.dot, sub_x, sub_y, sub_z]; ring
            rw [h2, h1]
            have h3 : e.d = - e.n.dot r.x := by linarith
            rw [h3]; ring
          unfold Spec.depthError
          rw [List.map_congr_left hrow, List.sum_map_add, List.sum_map_add]
          have : ((A.map fun e => 2 * (e.n.dot dx * e.n.dot (q - p)) - 2 * (-(1 / 10 ^ 5) * e.n.dot (q - p))).sum : ℝ) = 0 := by
            have e1 : (A.map fun e => 2 * (e.n.dot dx * e.n.dot (q - p)) - 2 * (-(1 / 10 ^ 5) * e.n.dot (q - p))).sum =
                2 * (A.map fun e => e.n.dot dx * e.n.dot (q - p)).sum - 2 * (A.map fun e => -(1 / 10 ^ 5) * e.n.dot (q - p)).sum := by
              rw [← List.sum_map_mul_left, ← List.sum_map_mul_left]
              generalize A = B
              induction B with
              | nil => simp
              | cons a t ih => simp only [List.map_cons, List.sum_cons, ih]; ring
            rw [e1, horth]; ring
          rw [this]; ring
        rw [k1]
        have : 0 ≤ (A.map fun e => (e.n.dot (q - p)) ^ 2).sum := by
          apply List.sum_nonneg
          intro x hx
          obtain ⟨e, -, rfl⟩ := List.mem_map.mp hx
          positivity
        linarith
      · cases hp
  · left
    rw [if_neg he] at hp
    refine ⟨not_not.mp fun hh => he (hex.mpr hh), ?_⟩
    split_ifs at hp
    · exact (Option.some.inj (Except.ok.inj hp)).symm
    · cases hp

/-- C57: if the solver answers with a corner, that is a point touching exactly three facets with independent normals, then the point
lying `10⁻⁵` inside these three is the one returned, provided it is more than `10⁻⁸` inside all others. -/
theorem C57_corner_found (S : Scipy) (hs : List HalfSpace) (r : LpAnswer) (h : S.linprog hs = some r)
    (hslack : r.slack = hs.map fun e => -e.d - e.n.dot r.x) (e1 e2 e3 : HalfSpace) (ht : Spec.touching hs r.x = [e1, e2, e3])
    (hind : (⟨e1.n, e2.n, e3.n⟩ : M3).det ≠ 0) (p : V3) (hp : ∀ e ∈ [e1, e2, e3], e.n.dot p + e.d = -(1 / 10 ^ 5))
    (hin : ∀ e ∈ hs, e.n.dot p + e.d < -(1 / 10 ^ 8)) : findFeasible S hs = .ok (some p) := by
  have hz : ∀ e ∈ [e1, e2, e3], e.n.dot r.x + e.d = 0 := by
    rw [← ht]
    intro e he'
    have := (List.mem_filter.mp he').2
    simpa using this
  have hy : ∀ e ∈ [e1, e2, e3], e.n.dot (p - r.x) = -(1 / 10 ^ 5) := by
    intro e he
    have a := hz e he
    have b := hp e he
    have : e.n.dot (p - r.x) = e.n.dot p - e.n.dot r.x := by simp only [V3.dot, sub_x, sub_y, sub_z]; ring
    linarith
  have hdet : (gram [e1, e2, e3]).det ≠ 0 := by
    have : (gram [e1, e2, e3]).det = (⟨e1.n, e2.n, e3.n⟩ : M3).det ^ 2 := by
      simp only [gram, List.map_cons, List.map_nil, List.foldr_cons, List.foldr_nil, M3.det, V3.dot, V3.cross]
      simp
      ring
    rw [this]; exact pow_ne_zero _ hind
  have hsol : solve3 (gram [e1, e2, e3]) (gramRhs [e1, e2, e3]) = .ok (p - r.x) := by
    apply gram_symm_det _ hdet
    intro z
    rw [gram_mulVec, gramRhs_dot]
    congr 1
    apply List.map_congr_left
    intro e he
    rw [hy e he]
  unfold findFeasible
  rw [h]
  dsimp only
  rw [hslack, activeRows_eq, ht, if_pos ?_, hsol]
  · dsimp only
    have : r.x + (p - r.x) = p := by ext <;> simp
    rw [this, if_pos hin]
  · have : e1 ∈ Spec.touching hs r.x := by rw [ht]; simp
    refine ⟨_, List.mem_map.mpr ⟨e1, (List.mem_filter.mp this).1, rfl⟩, ?_⟩
    have := hz e1 (by simp)
    linarith

/-- a case: the unit cube, the solver answering with a corner -/
example : ∃ (S : Scipy) (hs : List HalfSpace) (r : LpAnswer), S.linprog hs = some r ∧ r.slack = (hs.map fun e => -e.d - e.n.dot r.x) ∧
    hs.length = 6 ∧ (∀ e ∈ hs, e.n.dot r.x + e.d ≤ 0) ∧ findFeasible S hs = .ok (some ⟨1 / 10 ^ 5, 1 / 10 ^ 5, 1 / 10 ^ 5⟩) := by
  set hs : List HalfSpace := [⟨⟨-1, 0, 0⟩, 0⟩, ⟨⟨0, -1, 0⟩, 0⟩, ⟨⟨0, 0, -1⟩, 0⟩, ⟨⟨1, 0, 0⟩, -1⟩, ⟨⟨0, 1, 0⟩, -1⟩, ⟨⟨0, 0, 1⟩, -1⟩] with hhs
  refine ⟨⟨fun _ => .error .runtimeError, fun _ _ => .error .runtimeError, fun l => some ⟨0, l.map fun e => -e.d - e.n.dot 0⟩⟩, hs,
    ⟨0, hs.map fun e => -e.d - e.n.dot 0⟩, rfl, rfl, rfl, ?_, ?_⟩
  · intro e he
    simp only [hhs, List.mem_cons, List.not_mem_nil, or_false] at he
    rcases he with rfl | rfl | rfl | rfl | rfl | rfl <;> simp [V3.dot]
  · apply C57_corner_found _ hs ⟨0, hs.map fun e => -e.d - e.n.dot 0⟩ rfl rfl ⟨⟨-1, 0, 0⟩, 0⟩ ⟨⟨0, -1, 0⟩, 0⟩ ⟨⟨0, 0, -1⟩, 0⟩
    · simp [Spec.touching, hhs, List.filter_cons, V3.dot]
    · simp [M3.det, V3.dot, V3.cross]
    · intro e he
      simp only [List.mem_cons, List.not_mem_nil, or_false] at he
      rcases he with rfl | rfl | rfl <;> simp [V3.dot]
    · intro e he
      simp only [hhs, List.mem_cons, List.not_mem_nil, or_false] at he
      rcases he with rfl | rfl | rfl | rfl | rfl | rfl <;> simp [V3.dot] <;> norm_num

end XRD
