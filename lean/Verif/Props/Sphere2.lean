import Verif.Props.Sphere

/-! Property C77: exactly which bounding spheres are as small as possible. -/

namespace XRD
open V3 M3 Spec

/-- a point outside an element of nonzero volume can move towards all four vertices at once -/
theorem outside_moves {t : Tet} (ht : signedVolume t ≠ 0) {p : V3} (hp : ¬ InElement t p) :
    ∃ u : V3, 0 < V3.dot u (t.a - p) ∧ 0 < V3.dot u (t.b - p) ∧ 0 < V3.dot u (t.c - p) ∧ 0 < V3.dot u (t.d - p) := by
  set V := V3.dot (cross (t.b - t.a) (t.c - t.a)) (t.d - t.a) with hV
  have hV0 : V ≠ 0 := by
    intro h
    apply ht
    have : signedVolume t = V / 6 := by
      simp only [hV, signedVolume, cross, V3.dot, V3.sub_x, V3.sub_y, V3.sub_z]; ring
    rw [this, h]; simp
  set gd : V3 := (1 / V) • cross (t.b - t.a) (t.c - t.a) with hgd
  set gb : V3 := (1 / V) • cross (t.c - t.a) (t.d - t.a) with hgb
  set gc : V3 := (1 / V) • cross (t.d - t.a) (t.b - t.a) with hgc
  have hcomb : p = (1 - V3.dot gb (p - t.a) - V3.dot gc (p - t.a) - V3.dot gd (p - t.a)) • t.a +
      (V3.dot gb (p - t.a)) • t.b + (V3.dot gc (p - t.a)) • t.c + (V3.dot gd (p - t.a)) • t.d := by
    have key : ∀ (W : ℝ) (x y z : ℝ), W ≠ 0 → W * x = y → x = 1 / W * y := by
      intro W x y z hW h; rw [← h]; field_simp
    have hV' := hV0
    ext
    all_goals
      simp only [hgb, hgc, hgd, V3.dot, V3.smul_x, V3.smul_y, V3.smul_z, V3.add_x, V3.add_y, V3.add_z]
      apply mul_left_cancel₀ hV0
      field_simp
      rw [hV]
      simp only [cross, V3.dot, V3.sub_x, V3.sub_y, V3.sub_z]
      ring
  have ed : V3.dot gd (t.d - t.a) = 1 := by
    have : V3.dot gd (t.d - t.a) = 1 / V * V := by rw [hgd, hV]; simp only [V3.dot, V3.smul_x, V3.smul_y, V3.smul_z]; ring
    rw [this]; field_simp
  have eb : V3.dot gb (t.b - t.a) = 1 := by
    have : V3.dot gb (t.b - t.a) = 1 / V * V := by
      rw [hgb]; rw [show V = V3.dot (cross (t.c - t.a) (t.d - t.a)) (t.b - t.a) from by
        rw [hV]; simp only [cross, V3.dot]; ring]
      simp only [V3.dot, V3.smul_x, V3.smul_y, V3.smul_z]; ring
    rw [this]; field_simp
  have ec : V3.dot gc (t.c - t.a) = 1 := by
    have : V3.dot gc (t.c - t.a) = 1 / V * V := by
      rw [hgc]; rw [show V = V3.dot (cross (t.d - t.a) (t.b - t.a)) (t.c - t.a) from by
        rw [hV]; simp only [cross, V3.dot]; ring]
      simp only [V3.dot, V3.smul_x, V3.smul_y, V3.smul_z]; ring
    rw [this]; field_simp
  have zdb : V3.dot gd (t.b - t.a) = 0 := by
    rw [hgd]; simp only [V3.dot, cross, V3.smul_x, V3.smul_y, V3.smul_z]; ring
  have zdc : V3.dot gd (t.c - t.a) = 0 := by
    rw [hgd]; simp only [V3.dot, cross, V3.smul_x, V3.smul_y, V3.smul_z]; ring
  have zbc : V3.dot gb (t.c - t.a) = 0 := by
    rw [hgb]; simp only [V3.dot, cross, V3.smul_x, V3.smul_y, V3.smul_z]; ring
  have zbd : V3.dot gb (t.d - t.a) = 0 := by
    rw [hgb]; simp only [V3.dot, cross, V3.smul_x, V3.smul_y, V3.smul_z]; ring
  have zcd : V3.dot gc (t.d - t.a) = 0 := by
    rw [hgc]; simp only [V3.dot, cross, V3.smul_x, V3.smul_y, V3.smul_z]; ring
  have zcb : V3.dot gc (t.b - t.a) = 0 := by
    rw [hgc]; simp only [V3.dot, cross, V3.smul_x, V3.smul_y, V3.smul_z]; ring
  have split1 : ∀ (g v : V3), V3.dot g (v - p) = V3.dot g (v - t.a) - V3.dot g (p - t.a) := by
    intro g v; simp only [V3.dot, V3.sub_x, V3.sub_y, V3.sub_z]; ring
  have self0 : ∀ g : V3, V3.dot g (t.a - t.a) = 0 := by
    intro g; simp only [V3.dot, V3.sub_x, V3.sub_y, V3.sub_z]; ring
  by_cases h1 : V3.dot gb (p - t.a) < 0
  · refine ⟨gb, ?_, ?_, ?_, ?_⟩ <;> rw [split1] <;> simp only [self0, eb, zbc, zbd] <;> linarith
  by_cases h2 : V3.dot gc (p - t.a) < 0
  · refine ⟨gc, ?_, ?_, ?_, ?_⟩ <;> rw [split1] <;> simp only [self0, ec, zcb, zcd] <;> linarith
  by_cases h3 : V3.dot gd (p - t.a) < 0
  · refine ⟨gd, ?_, ?_, ?_, ?_⟩ <;> rw [split1] <;> simp only [self0, ed, zdb, zdc] <;> linarith
  by_cases h4 : 1 - V3.dot gb (p - t.a) - V3.dot gc (p - t.a) - V3.dot gd (p - t.a) < 0
  · have e : ∀ v, V3.dot ((-1 : ℝ) • (gb + gc + gd)) v = - (V3.dot gb v + V3.dot gc v + V3.dot gd v) := by
      intro v; simp only [V3.dot, V3.smul_x, V3.smul_y, V3.smul_z, V3.add_x, V3.add_y, V3.add_z]; ring
    refine ⟨(-1 : ℝ) • (gb + gc + gd), ?_, ?_, ?_, ?_⟩ <;> rw [split1, e, e] <;>
      simp only [self0, eb, ec, ed, zbc, zbd, zcb, zcd, zdb, zdc] <;> linarith
  exact absurd ⟨_, _, _, _, not_lt.1 h4, not_lt.1 h1, not_lt.1 h2, not_lt.1 h3, by ring, hcomb⟩ hp

/-- a sphere through the four vertices whose centre is outside the element is not the smallest ball -/
theorem outside_smaller {t : Tet} (ht : signedVolume t ≠ 0) {p : V3} {R : ℝ} (hp : ¬ InElement t p) (hR : OnSphere t p R) :
    ∃ c' r', InBall t c' r' ∧ r' < R := by
  obtain ⟨u, ha, hb, hc, hd⟩ := outside_moves ht hp
  set m := min (min (V3.dot u (t.a - p)) (V3.dot u (t.b - p))) (min (V3.dot u (t.c - p)) (V3.dot u (t.d - p))) with hm
  have hm0 : 0 < m := lt_min (lt_min ha hb) (lt_min hc hd)
  have hu : 0 < nsq u := by
    rcases (nsq_nonneg u).lt_or_eq with h | h
    · exact h
    · exfalso
      have : u = 0 := nsq_eq_zero.1 h.symm
      rw [this] at ha; simp [V3.dot] at ha
  have hR0 : 0 ≤ R := by rw [← hR.1]; exact norm_nonneg _
  have step : ∀ v, V3.dist v p = R → m ≤ V3.dot u (v - p) →
      V3.dist v (p + (m / nsq u) • u) ≤ Real.sqrt (R ^ 2 - m ^ 2 / nsq u) := by
    intro v hv hmv
    unfold V3.dist at hv ⊢
    apply Real.le_sqrt_of_sq_le
    rw [norm_sq, ← hv, norm_sq]
    have e : nsq (v - (p + (m / nsq u) • u)) = nsq (v - p) - 2 * (m / nsq u) * V3.dot u (v - p) + (m / nsq u) ^ 2 * nsq u := by
      simp only [nsq, V3.dot, V3.sub_x, V3.sub_y, V3.sub_z, V3.smul_x, V3.smul_y, V3.smul_z, V3.add_x, V3.add_y, V3.add_z]; ring
    rw [e]
    have e2 : (m / nsq u) ^ 2 * nsq u = m ^ 2 / nsq u := by field_simp
    have e3 : m ^ 2 / nsq u = (m / nsq u) * m := by ring
    have e4 : (m / nsq u) * m ≤ (m / nsq u) * V3.dot u (v - p) := mul_le_mul_of_nonneg_left hmv (by positivity)
    rw [e2, e3]; linarith
  refine ⟨p + (m / nsq u) • u, Real.sqrt (R ^ 2 - m ^ 2 / nsq u),
    ⟨step _ hR.1 ?_, step _ hR.2.1 ?_, step _ hR.2.2.1 ?_, step _ hR.2.2.2 ?_⟩, ?_⟩
  · exact (min_le_left _ _).trans (min_le_left _ _)
  · exact (min_le_left _ _).trans (min_le_right _ _)
  · exact (min_le_right _ _).trans (min_le_left _ _)
  · exact (min_le_right _ _).trans (min_le_right _ _)
  · have hRp : 0 < R := by
      rcases hR0.lt_or_eq with h | h
      · exact h
      · exfalso
        have : t.a - p = 0 := norm_eq_zero.1 (by rw [h]; exact hR.1)
        rw [this] at ha; simp [V3.dot] at ha
    rw [Real.sqrt_lt' hRp]
    have : 0 < m ^ 2 / nsq u := by positivity
    linarith

/-- C77, exactly: for every element of every mesh that can be built, with vertices `t`, bounding sphere centre `c` and
radius `r`, the radius is at most 1.0001 times the radius of every ball containing the element exactly when the centre is
a point of the element. -/
theorem C77_smallest_iff (coord : List V3) (enod : List (Q4 ℕ)) (m : TetraMesh)
    (hm : TetraMesh.new coord enod = .ok m) (i : ℕ) (t : Q4 V3) (c : V3) (r : ℝ) (q : Q4 ℕ) (hq : m.enod[i]? = some q)
    (ht : ∀ j < 4, m.coord[q.get j]? = some (t.get j)) (hc : m.espherecentroids[i]? = some c)
    (hr : m.eradius[i]? = some r) :
    (∀ c' r', InBall t c' r' → r ≤ 1.0001 * r') ↔ InElement t c := by
  have hmd : m.enod = enod := by obtain ⟨rfl, -, -⟩ := TetraMesh.new_ok hm; rfl
  rw [hmd] at hq
  obtain ⟨hi, rfl⟩ := List.getElem?_eq_some_iff.1 hq
  obtain ⟨t', c₁, r₁, h1, h2, h3, h4⟩ := C77_smallest_spheres_partial coord enod m hm i hi
  obtain rfl : c₁ = c := Option.some.inj (h2.symm.trans hc)
  obtain rfl : r₁ = r := Option.some.inj (h3.symm.trans hr)
  have htt : t' = t := by
    have e := fun j hj => Option.some.inj ((h1 j hj).symm.trans (ht j hj))
    have e0 := e 0 (by norm_num); have e1 := e 1 (by norm_num); have e2 := e 2 (by norm_num); have e3 := e 3 (by norm_num)
    cases t; cases t'
    simp only [Q4.get] at e0 e1 e2 e3
    subst e0 e1 e2 e3; rfl
  subst htt
  rcases h4 with ⟨hin, hmin⟩ | ⟨hout, hon⟩
  · exact ⟨fun _ => hin, fun _ => hmin⟩
  · refine ⟨fun h => ?_, fun h => absurd h hout⟩
    exfalso
    obtain ⟨rfl, hin, hvol⟩ := TetraMesh.new_ok hm
    have hmem : t' ∈ elements coord enod := by
      refine List.mem_map.mpr ⟨_, List.getElem_mem hi, ?_⟩
      have e : ∀ j < 4, coord.getD (enod[i].get j) 0 = t'.get j := by
        intro j hj
        have := h1 j hj
        simp only [TetraMesh.ofData] at this
        rw [List.getD_eq_getElem?_getD, this]; rfl
      have e0 := e 0 (by norm_num); have e1 := e 1 (by norm_num); have e2 := e 2 (by norm_num); have e3 := e 3 (by norm_num)
      cases t'
      simp only [Q4.get] at e0 e1 e2 e3
      simp only [Q4.map]
      rw [e0, e1, e2, e3]
    obtain ⟨c', r', hb, hlt⟩ := outside_smaller (hvol t' hmem) hout hon
    have := h c' r' hb
    rw [lt_div_iff₀ (by norm_num)] at hlt
    linarith

/-- both sides occur: the sphere of the flat element is not the smallest -/
example : ¬ InElement (flatTet (1 / 2)) (sphereOf (flatTet (1 / 2))).1 := by
  rw [flat_sphere _ (by norm_num) (by norm_num)]
  exact flat_not_in _ (by norm_num) (by norm_num)

end XRD
