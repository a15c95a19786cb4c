import Verif.Lemmas.Sphere
import Verif.Props.Mesh

/-! Property C77: how tight the bounding spheres of the elements are. -/

namespace XRD
open V3 M3 Spec

/-- the bounding sphere computed for an element of nonzero volume -/
theorem sphereOf_tight {t : Tet} (ht : signedVolume t ≠ 0) :
    (InElement t (sphereOf t).1 ∧ ∀ c' r', InBall t c' r' → (sphereOf t).2 ≤ 1.0001 * r') ∨
    (¬ InElement t (sphereOf t).1 ∧ OnSphere t (sphereOf t).1 ((sphereOf t).2 / 1.0001)) := by
  have hsl : slack = 1.0001 := by unfold slack; norm_num
  have small : ∀ (u v w x R : ℝ), 0 ≤ u → 0 ≤ v → 0 ≤ w → 0 ≤ x → u + v + w + x = 1 →
      (sphereOf t).1 = u • t.a + v • t.b + w • t.c + x • t.d → (sphereOf t).2 = R * slack →
      u * nsq (t.a - (sphereOf t).1) = u * R ^ 2 → v * nsq (t.b - (sphereOf t).1) = v * R ^ 2 →
      w * nsq (t.c - (sphereOf t).1) = w * R ^ 2 → x * nsq (t.d - (sphereOf t).1) = x * R ^ 2 →
      InElement t (sphereOf t).1 ∧ ∀ c' r', InBall t c' r' → (sphereOf t).2 ≤ 1.0001 * r' := by
    intro u v w x R hu hv hw hx h1 hc hr n1 n2 n3 n4
    refine ⟨⟨u, v, w, x, hu, hv, hw, hx, h1, hc⟩, ?_⟩
    intro c' r' hb
    have := mean_ball hu hv hw hx h1 hc n1 n2 n3 n4 hb
    rw [hr, hsl]; linarith
  rcases sphereOf_cases ht with ⟨u, v, w, x, R, hu, hv, hw, hx, h1, hc, hr, n1, n2, n3, n4⟩ | h4
  · exact Or.inl (small u v w x R hu hv hw hx h1 hc hr n1 n2 n3 n4)
  · obtain ⟨e1, e2, e3⟩ := (sphere4_spec ht (sphere4 t).1).mp rfl
    have hr : (sphere4 t).2 = norm (t.a - (sphere4 t).1) * slack := rfl
    by_cases hin : InElement t (sphereOf t).1
    · left
      obtain ⟨u, v, w, x, hu, hv, hw, hx, h1, hc⟩ := hin
      refine small u v w x (norm (t.a - (sphere4 t).1)) hu hv hw hx h1 hc (by rw [h4]; exact hr) ?_ ?_ ?_ ?_ <;>
        rw [h4, norm_sq]
      · rw [e1]
      · rw [e2]
      · rw [e3]
    · right
      refine ⟨hin, ?_⟩
      have hv : (sphere4 t).2 / 1.0001 = norm (t.a - (sphere4 t).1) := by rw [hr, hsl]; norm_num
      rw [h4, hv]
      exact ⟨rfl, norm_eq_iff.2 e1, norm_eq_iff.2 e2, norm_eq_iff.2 e3⟩

/-- C77 (partial).  For every element of every mesh that can be built, with vertices `t`, bounding sphere centre `c` and
radius `r`: either `c` is a point of the element and `r` is at most 1.0001 times the radius of any ball that contains the
element, or `c` is outside the element and the sphere is 1.0001 times the sphere through all four vertices.  Missing: in
the second case the radius is not the smallest, see `C77_spheres_unbounded_fails`. -/
theorem C77_smallest_spheres_partial (coord : List V3) (enod : List (Q4 ℕ)) (m : TetraMesh)
    (hm : TetraMesh.new coord enod = .ok m) (i : ℕ) (hi : i < enod.length) :
    ∃ t c r, (∀ j < 4, m.coord[enod[i].get j]? = some (t.get j)) ∧ m.espherecentroids[i]? = some c ∧
      m.eradius[i]? = some r ∧
      ((InElement t c ∧ ∀ c' r', InBall t c' r' → r ≤ 1.0001 * r') ∨ (¬ InElement t c ∧ OnSphere t c (r / 1.0001))) := by
  obtain ⟨rfl, hin, hvol⟩ := TetraMesh.new_ok hm
  set t : Tet := (enod[i]).map fun k => coord.getD k 0 with ht
  have hmem : t ∈ elements coord enod := List.mem_map.mpr ⟨_, List.getElem_mem hi, rfl⟩
  refine ⟨t, (sphereOf t).1, (sphereOf t).2, ?_, ?_, ?_, sphereOf_tight (hvol t hmem)⟩
  · intro j hj
    have hidx : enod[i].get j < coord.length := by
      apply hin _ (List.getElem_mem hi)
      match j, hj with
      | 0, _ => simp [Q4.get, Q4.toList]
      | 1, _ => simp [Q4.get, Q4.toList]
      | 2, _ => simp [Q4.get, Q4.toList]
      | 3, _ => simp [Q4.get, Q4.toList]
    rw [ht, get_map, List.getD_eq_getElem _ _ hidx]
    simp [TetraMesh.ofData, hidx]
  · simp [TetraMesh.ofData, elements, hi, ht]
  · simp [TetraMesh.ofData, elements, hi, ht]

/-- C77: the bounding radius is never more than 1.0001 times the radius of the sphere through the four vertices. -/
theorem C77_within_circumsphere (coord : List V3) (enod : List (Q4 ℕ)) (m : TetraMesh)
    (hm : TetraMesh.new coord enod = .ok m) (i : ℕ) (hi : i < enod.length) (t : Q4 V3)
    (ht : ∀ j < 4, m.coord[enod[i].get j]? = some (t.get j)) (c' : V3) (R : ℝ) (hR : OnSphere t c' R) :
    ∃ r, m.eradius[i]? = some r ∧ r ≤ 1.0001 * R := by
  obtain ⟨t', c, r, h1, h2, h3, h4⟩ := C77_smallest_spheres_partial coord enod m hm i hi
  have htt : t' = t := by
    have e := fun j hj => Option.some.inj ((h1 j hj).symm.trans (ht j hj))
    have e0 := e 0 (by norm_num); have e1 := e 1 (by norm_num); have e2 := e 2 (by norm_num); have e3 := e 3 (by norm_num)
    cases t; cases t'
    simp only [Q4.get] at e0 e1 e2 e3
    subst e0 e1 e2 e3; rfl
  subst htt
  refine ⟨r, h3, ?_⟩
  rcases h4 with ⟨-, h⟩ | ⟨-, h⟩
  · exact h c' R ⟨hR.1.le, hR.2.1.le, hR.2.2.1.le, hR.2.2.2.le⟩
  · -- the circumscribed sphere is unique
    obtain ⟨rfl, hin, hvol⟩ := TetraMesh.new_ok hm
    have hmem : t' ∈ elements coord enod := by
      refine List.mem_map.mpr ⟨_, List.getElem_mem hi, ?_⟩
      have e : ∀ j < 4, coord.getD (enod[i].get j) 0 = t'.get j := by
        intro j hj
        have := h1 j hj
        simp only [TetraMesh.ofData] at this
        rw [List.getD_eq_getElem?_getD, this]; rfl
      have e0 := e 0 (by norm_num); have e1 := e 1 (by norm_num); have e2 := e 2 (by norm_num); have e3 := e 3 (by norm_num)
      cases t'
      simp only [Q4.get] at e0 e1 e2 e3
      simp only [Q4.map]
      rw [e0, e1, e2, e3]
    have hv := hvol t' hmem
    have u : ∀ {x : V3} {s : ℝ}, OnSphere t' x s → (sphere4 t').1 = x := by
      intro x s hs
      obtain ⟨s1, s2, s3, s4⟩ := hs
      unfold V3.dist at s1 s2 s3 s4
      exact (sphere4_spec hv x).mpr ⟨norm_eq_iff.1 (s2.trans s1.symm), norm_eq_iff.1 (s3.trans s1.symm), norm_eq_iff.1 (s4.trans s1.symm)⟩
    have hcc : c = c' := (u h).symm.trans (u hR)
    have : r / 1.0001 = R := by rw [← h.1, hcc, hR.1]
    rw [← this]; norm_num
    linarith

/-- a flat element -/
noncomputable def flatCoord (e : ℝ) : List V3 := [⟨-5, 0, 0⟩, ⟨5, 0, 0⟩, ⟨0, 7, 0⟩, ⟨5 / 2, 13 / 2, e⟩]
noncomputable def flatTet (e : ℝ) : Tet := ⟨⟨-5, 0, 0⟩, ⟨5, 0, 0⟩, ⟨0, 7, 0⟩, ⟨5 / 2, 13 / 2, e⟩⟩
noncomputable def flatMesh (e : ℝ) : TetraMesh := TetraMesh.ofData (flatCoord e) [⟨0, 1, 2, 3⟩]

theorem flat_elements (e : ℝ) : elements (flatCoord e) [⟨0, 1, 2, 3⟩] = [flatTet e] := rfl
theorem flat_volume (e : ℝ) (he : 0 < e) : signedVolume (flatTet e) ≠ 0 := by
  simp [signedVolume, flatTet, cross, V3.dot]; positivity

theorem flatMesh_new (e : ℝ) (he : 0 < e) : TetraMesh.new (flatCoord e) [⟨0, 1, 2, 3⟩] = .ok (flatMesh e) := by
  unfold TetraMesh.new
  rw [if_pos, if_pos]
  · rfl
  · rw [flat_elements]
    intro t ht
    rw [List.mem_singleton] at ht; rw [ht]; exact flat_volume e he
  · intro q hq i hi
    rw [List.mem_singleton] at hq; rw [hq] at hi
    simp [Q4.toList] at hi
    simp [flatCoord]; omega

/-- the centre of the sphere through the four vertices of the flat element -/
theorem flat_centre (e : ℝ) (he : 0 < e) : (sphere4 (flatTet e)).1 = ⟨0, 12 / 7, (17 / 14 + e ^ 2) / (2 * e)⟩ := by
  rw [sphere4_spec (flat_volume e he)]
  simp only [flatTet, nsq, V3.dot, V3.sub_x, V3.sub_y, V3.sub_z]
  refine ⟨by ring, by ring, ?_⟩
  field_simp
  ring

/-- the code does not stop before the circumscribed sphere -/
theorem flat_not_in (e : ℝ) (he : 0 < e) (h1 : e ≤ 1 / 2) : ¬ InElement (flatTet e) (sphere4 (flatTet e)).1 := by
  rw [flat_centre e he]
  rintro ⟨u, v, w, x, hu, hv, hw, hx, hs, hc⟩
  have hz := congrArg V3.z hc
  simp [flatTet] at hz
  have hx1 : x ≤ 1 := by linarith
  have : x * e ≤ 1 := by nlinarith
  rw [← hz, div_le_one (by positivity)] at this
  nlinarith


theorem argmax_zero {l : List ℝ} (h : ∀ i, l.getD i 0 ≤ l.getD 0 0) : argmax l = 0 := by
  have key : ∀ js : List ℕ, js.foldl (fun best i => if l.getD best 0 < l.getD i 0 then i else best) 0 = 0 := by
    intro js
    induction js with
    | nil => rfl
    | cons k ks ih => rw [List.foldl_cons, if_neg (not_lt.2 (h k))]; exact ih
  exact key _

theorem norm_le_of_nsq {a : V3} {r : ℝ} (hr : 0 ≤ r) (h : nsq a ≤ r ^ 2) : norm a ≤ r := by
  unfold V3.norm; rw [Real.sqrt_le_left hr]; exact h
theorem lt_norm_of_nsq {a : V3} {r : ℝ} (hr : 0 ≤ r) (h : r ^ 2 < nsq a) : r < norm a := by
  unfold V3.norm; exact Real.lt_sqrt_of_sq_lt h

theorem flat_sphere (e : ℝ) (he : 0 < e) (h1 : e ≤ 1 / 2) : sphereOf (flatTet e) = sphere4 (flatTet e) := by
  have e2 : e * e ≤ 1 / 2 := by nlinarith
  have n20 : V3.dist (flatTet e).b (flatTet e).a = 10 := by
    unfold V3.dist V3.norm
    rw [show nsq ((flatTet e).b - (flatTet e).a) = 10 ^ 2 by norm_num [flatTet, nsq, V3.dot], Real.sqrt_sq (by norm_num)]
  have hside : argmax (sidesOf (flatTet e)) = 0 := by
    apply argmax_zero
    intro i
    simp only [sidesOf, List.getD_cons_zero, n20]
    match i with
    | 0 => simp [n20]
    | 1 => simp only [List.getD_cons_succ, List.getD_cons_zero]; apply norm_le_of_nsq (by norm_num); norm_num [flatTet, nsq, V3.dot]
    | 2 => simp only [List.getD_cons_succ, List.getD_cons_zero]; apply norm_le_of_nsq (by norm_num); norm_num [flatTet, nsq, V3.dot]; linarith
    | 3 => simp only [List.getD_cons_succ, List.getD_cons_zero]; apply norm_le_of_nsq (by norm_num); norm_num [flatTet, nsq, V3.dot]
    | 4 => simp only [List.getD_cons_succ, List.getD_cons_zero]; apply norm_le_of_nsq (by norm_num); norm_num [flatTet, nsq, V3.dot]; linarith
    | 5 => simp only [List.getD_cons_succ, List.getD_cons_zero]; apply norm_le_of_nsq (by norm_num); norm_num [flatTet, nsq, V3.dot]; linarith
    | k + 6 => simp
  have hmid : (1 / 2 : ℝ) • ((flatTet e).a + (flatTet e).b) = 0 := by ext <;> simp [flatTet]
  have n14 : norm (flatTet e).c = 7 := by
    unfold V3.norm
    rw [show nsq (flatTet e).c = 7 ^ 2 by norm_num [flatTet, nsq, V3.dot], Real.sqrt_sq (by norm_num)]
  have n10 : norm (flatTet e).a = 5 := by
    unfold V3.norm
    rw [show nsq (flatTet e).a = 5 ^ 2 by norm_num [flatTet, nsq, V3.dot], Real.sqrt_sq (by norm_num)]
  have hd : norm (flatTet e).d ≤ 7 := by
    apply norm_le_of_nsq (by norm_num); norm_num [flatTet, nsq, V3.dot]; linarith
  have harg : argmax [norm (flatTet e).c, norm (flatTet e).d] = 0 := by
    apply argmax_zero
    intro i
    match i with
    | 0 => simp
    | 1 => simpa [n14] using hd
    | k + 2 => simp [V3.norm_nonneg]
  have hs3 : sphere3 (flatTet e).a (flatTet e).b (flatTet e).c = (⟨0, 12 / 7, 0⟩, norm (⟨5, 12 / 7, 0⟩ : V3) * slack) := by
    have hu : (⟨5, 12 / 7, 0⟩ : V3) = (⟨0, 12 / 7, 0⟩ : V3) - (flatTet e).a := by ext <;> simp [flatTet]
    unfold sphere3
    simp only [norm_sq]
    have : (1 / (2 * nsq (cross ((flatTet e).b - (flatTet e).a) ((flatTet e).c - (flatTet e).a)))) •
        (nsq ((flatTet e).c - (flatTet e).a) • cross (cross ((flatTet e).b - (flatTet e).a) ((flatTet e).c - (flatTet e).a)) ((flatTet e).b - (flatTet e).a) +
        nsq ((flatTet e).b - (flatTet e).a) • cross (cross ((flatTet e).c - (flatTet e).a) ((flatTet e).b - (flatTet e).a)) ((flatTet e).c - (flatTet e).a))
        = (⟨5, 12 / 7, 0⟩ : V3) := by
      ext <;> simp [flatTet, cross, nsq, V3.dot] <;> norm_num
    rw [this]
    refine Prod.ext ?_ rfl
    rw [hu]; ext <;> simp
  unfold sphereOf
  simp only [hside, pairTable, List.getD_cons_zero, Q4.get]
  have hoth : ([0, 1, 2, 3].filter fun k : ℕ => k ≠ 0 ∧ k ≠ 1) = [2, 3] := by decide
  have hna : norm (0 - (flatTet e).a) = 5 := by rw [zero_sub, V3.norm_neg]; exact n10
  simp only [sphere2, hmid, hna, sub_zero]
  rw [if_neg, if_neg]
  · rintro ⟨-, -, -, h⟩
    simp [Q4.get, harg, hs3] at h
    have l1 : norm (⟨5, 12 / 7, 0⟩ : V3) * slack ≤ 5.3 := by
      have : norm (⟨5, 12 / 7, 0⟩ : V3) ≤ 5.29 := by
        apply norm_le_of_nsq (by norm_num); norm_num [nsq, V3.dot]
      unfold slack; linarith
    have l2 : 5.35 < norm ((flatTet e).d - ⟨0, 12 / 7, 0⟩) := by
      apply lt_norm_of_nsq (by norm_num)
      norm_num [flatTet, nsq, V3.dot]
      nlinarith
    linarith
  · rintro ⟨h, -⟩
    simp [Q4.get] at h
    rw [n14] at h
    unfold slack at h
    norm_num at h


/-- C77 (the missing part is false).  The radius of the bounding sphere is not within any fixed factor of that of the
smallest ball containing the element: for every `K` there is a mesh of one element of nonzero volume which lies in a ball
of radius `r'` while its bounding sphere has radius at least `K r'`, and a centre further than `K r'` from all four
vertices. -/
theorem C77_spheres_unbounded_fails (K : ℝ) :
    ∃ (coord : List V3) (m : TetraMesh) (t : Q4 V3) (c c' : V3) (r r' : ℝ),
      TetraMesh.new coord [⟨0, 1, 2, 3⟩] = .ok m ∧ coord = [t.a, t.b, t.c, t.d] ∧ InBall t c' r' ∧ 0 < r' ∧
      m.espherecentroids = [c] ∧ m.eradius = [r] ∧ K * r' ≤ r ∧
      K * r' < V3.dist t.a c ∧ K * r' < V3.dist t.b c ∧ K * r' < V3.dist t.c c ∧ K * r' < V3.dist t.d c := by
  set e : ℝ := 1 / (50 * (|K| + 1)) with hed
  have hK := abs_nonneg K
  have he : 0 < e := by positivity
  have h1 : e ≤ 1 / 2 := by rw [hed, div_le_div_iff₀ (by positivity) (by norm_num)]; linarith
  have hinv : 1 / e = 50 * (|K| + 1) := by rw [hed]; field_simp
  have hz : 24 * (|K| + 1) ≤ (17 / 14 + e ^ 2) / (2 * e) := by
    have : (17 / 14 + e ^ 2) / (2 * e) = 17 / 28 * (1 / e) + e / 2 := by field_simp; ring
    rw [this, hinv]; nlinarith
  obtain ⟨c1, c2, c3⟩ := (sphere4_spec (flat_volume e he) (sphere4 (flatTet e)).1).mp rfl
  have hbig : 24 * (|K| + 1) ≤ norm ((flatTet e).a - (sphere4 (flatTet e)).1) := by
    rw [flat_centre e he]
    apply Real.le_sqrt_of_sq_le
    have hz0 : 0 ≤ 24 * (|K| + 1) := by positivity
    simp only [flatTet, nsq, V3.dot, V3.sub_x, V3.sub_y, V3.sub_z]
    nlinarith [pow_le_pow_left₀ hz0 hz 2]
  have hKr : K * 15 < 24 * (|K| + 1) := by nlinarith [le_abs_self K]
  refine ⟨flatCoord e, flatMesh e, flatTet e, (sphereOf (flatTet e)).1, 0, (sphereOf (flatTet e)).2, 15,
    flatMesh_new e he, rfl, ?_, by norm_num, rfl, rfl, ?_, ?_, ?_, ?_, ?_⟩
  · refine ⟨?_, ?_, ?_, ?_⟩ <;> refine norm_le_of_nsq (by norm_num) ?_ <;> norm_num [flatTet, nsq, V3.dot]
    nlinarith
  · rw [flat_sphere e he h1]
    have hr : (sphere4 (flatTet e)).2 = norm ((flatTet e).a - (sphere4 (flatTet e)).1) * slack := rfl
    have := le_slack (V3.norm_nonneg ((flatTet e).a - (sphere4 (flatTet e)).1))
    rw [hr]; linarith
  all_goals rw [flat_sphere e he h1]; unfold V3.dist
  · linarith
  · rw [norm_eq_iff.2 c1]; linarith
  · rw [norm_eq_iff.2 c2]; linarith
  · rw [norm_eq_iff.2 c3]; linarith

/-- both cases of `C77_smallest_spheres_partial` occur: the flat element is in the second one -/
example : ¬ InElement (flatTet (1 / 2)) (sphereOf (flatTet (1 / 2))).1 := by
  rw [flat_sphere (1 / 2) (by norm_num) (le_refl _)]; exact flat_not_in (1 / 2) (by norm_num) (le_refl _)

end XRD
