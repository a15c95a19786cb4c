import Verif.Props.LevelSet

/-! Property C86, continued: a concrete mesh from a level set, with nodes outside the bounding radius. -/

namespace XRD
open V3 Spec
open scoped Classical

/-- a small ball near a corner of the sampling cube of half side 19 -/
noncomputable def cornerBall (p : V3) : ℝ := 1 - norm (p - ⟨17, 17, 17⟩)

theorem scene_samples : samples 19 4 = 20 := samples_eq_20 (by norm_num) (by norm_num)
theorem scene_spacing : spacing 19 4 = 2 := by unfold spacing; rw [scene_samples]; norm_num

theorem cornerBall_cont : ContinuousOnLines cornerBall := by
  intro p q
  unfold cornerBall V3.norm nsq V3.dot
  simp only [sub_x, sub_y, sub_z, add_x, add_y, add_z, smul_x, smul_y, smul_z]
  fun_prop

/-- only one sample is positive -/
theorem cornerBall_positive (a : Idx) : Positive (sampleVolume cornerBall 19 20) a ↔ a = (18, 18, 18) := by
  obtain ⟨i, j, k⟩ := a
  have e := sampleVolume_eq cornerBall 19 4 (i, j, k)
  rw [scene_samples] at e
  unfold Positive
  rw [e]
  unfold cornerBall samplePoint
  rw [scene_spacing, sub_pos]
  unfold V3.norm
  rw [Real.sqrt_lt' one_pos]
  have hn : nsq ((⟨-19 + i * 2, -19 + j * 2, -19 + k * 2⟩ : V3) - ⟨17, 17, 17⟩) =
      ((4 * (((i : ℤ) - 18) ^ 2 + ((j : ℤ) - 18) ^ 2 + ((k : ℤ) - 18) ^ 2) : ℤ) : ℝ) := by
    simp only [nsq, V3.dot, sub_x, sub_y, sub_z]; push_cast; ring
  simp only at hn ⊢
  rw [hn]
  constructor
  · intro h
    have h' : (4 * (((i : ℤ) - 18) ^ 2 + ((j : ℤ) - 18) ^ 2 + ((k : ℤ) - 18) ^ 2) : ℤ) < 1 := by
      have : (((4 * (((i : ℤ) - 18) ^ 2 + ((j : ℤ) - 18) ^ 2 + ((k : ℤ) - 18) ^ 2) : ℤ)) : ℝ) < ((1 : ℤ) : ℝ) := by
        push_cast at h ⊢; linarith
      exact_mod_cast this
    have q1 := sq_nonneg ((i : ℤ) - 18)
    have q2 := sq_nonneg ((j : ℤ) - 18)
    have q3 := sq_nonneg ((k : ℤ) - 18)
    have z : ∀ x : ℤ, x ^ 2 ≤ 0 → x = 0 := fun x hx => by nlinarith [sq_nonneg x, pow_eq_zero_iff (n := 2) (a := x) two_ne_zero |>.mp (le_antisymm hx (sq_nonneg x))]
    have z1 := z _ (show ((i : ℤ) - 18) ^ 2 ≤ 0 by linarith)
    have z2 := z _ (show ((j : ℤ) - 18) ^ 2 ≤ 0 by linarith)
    have z3 := z _ (show ((k : ℤ) - 18) ^ 2 ≤ 0 by linarith)
    rw [Prod.mk.injEq, Prod.mk.injEq]
    omega
  · intro h
    rw [Prod.mk.injEq, Prod.mk.injEq] at h
    obtain ⟨rfl, rfl, rfl⟩ := h
    norm_num

/-- C86, limit: `bounding_radius` does not bound the distance of the nodes from the origin: for every correct marching cubes and mesher,
the mesh of the ball of radius 1 around `(17, 17, 17)` with bounding radius 19 has a node at a distance above 27. -/
theorem C86_bounding_radius_fails (mc : MarchingCubes) (build : TetBuild) (hmc : IsMarchingCubes mc) (hb : IsTetBuild build) (mesh : TetraMesh)
    (h : meshFromLevelset mc build cornerBall 19 4 = .ok mesh) : ∃ p ∈ mesh.coord, 27 < norm p := by
  obtain ⟨vs, faces, h1, h2⟩ := levelset_ok (by norm_num) (by norm_num) h
  rw [scene_samples, scene_spacing] at h1
  obtain ⟨v, hv, s, s0, s1, rfl⟩ := hmc.edges _ _ _ _ _ (by norm_num) h1 (18, 18, 18) (19, 18, 18) ⟨by norm_num, by norm_num, by norm_num⟩
    ⟨by norm_num, by norm_num, by norm_num⟩ (Or.inl (Or.inl rfl)) ((cornerBall_positive _).mpr rfl) (fun h => by
      have := (cornerBall_positive _).mp h
      simp at this)
  refine ⟨_, hb.kept _ _ _ _ _ h2 _ (List.mem_map_of_mem hv), ?_⟩
  unfold V3.norm
  apply Real.lt_sqrt_of_sq_lt
  simp only [nsq, V3.dot, node, add_x, add_y, add_z, sub_x, sub_y, sub_z, smul_x, smul_y, smul_z]
  norm_num
  nlinarith

/-- the octahedron around `(17, 17, 17)` -/
noncomputable def octaPoints : List V3 := [⟨16, 17, 17⟩, ⟨18, 17, 17⟩, ⟨17, 16, 17⟩, ⟨17, 18, 17⟩, ⟨17, 17, 16⟩, ⟨17, 17, 18⟩]
/-- cut into four tetrahedra -/
def octaTets : List (Q4 ℕ) := [⟨0, 1, 2, 4⟩, ⟨0, 1, 2, 5⟩, ⟨0, 1, 3, 4⟩, ⟨0, 1, 3, 5⟩]

/-- a mesher that returns the octahedron where that is correct, and fails elsewhere -/
noncomputable def octaBuild : TetBuild := fun verts faces V =>
  if (∀ p ∈ octaPoints, p ∈ convexHull ℝ {v | v ∈ verts}) ∧ (∀ v ∈ verts, v ∈ octaPoints) ∧
      (∀ p, OnOuterSurface octaPoints octaTets p → ∃ t ∈ faces, InFace verts t p) ∧ (∀ t ∈ elements octaPoints octaTets, sixVolume t / 6 ≤ V) then
    .ok (octaPoints, octaTets)
  else .error .runtimeError

theorem octaBuild_spec : IsTetBuild octaBuild := by
  have key : ∀ verts faces V pts els, octaBuild verts faces V = .ok (pts, els) →
      (∀ p ∈ pts, p ∈ convexHull ℝ {v | v ∈ verts}) ∧ (∀ v ∈ verts, v ∈ pts) ∧
      (∀ p, OnOuterSurface pts els p → ∃ t ∈ faces, InFace verts t p) ∧ (∀ t ∈ elements pts els, sixVolume t / 6 ≤ V) := by
    intro verts faces V pts els h
    unfold octaBuild at h
    split_ifs at h with hc
    have := Except.ok.inj h
    simp only [Prod.mk.injEq] at this
    obtain ⟨rfl, rfl⟩ := this
    exact hc
  exact ⟨fun v f V p e h => (key v f V p e h).1, fun v f V p e h => (key v f V p e h).2.1, fun v f V p e h => (key v f V p e h).2.2.1,
    fun v f V p e h => (key v f V p e h).2.2.2⟩

/-- the vertices marching cubes finds -/
noncomputable def octaEdges : List V3 := (crossedEdges 20 (sampleVolume cornerBall 19 20)).map (midNode 2)

theorem octa_mid {a b : Idx} (ha : InGrid 20 a) (hb : InGrid 20 b) (hn : NextTo a b) (h : (a = (18, 18, 18)) ↔ ¬ (b = (18, 18, 18))) :
    midNode 2 (a, b) ∈ octaEdges := by
  apply List.mem_map_of_mem
  rw [mem_crossedEdges]
  refine ⟨ha, hb, hn, ?_⟩
  rw [cornerBall_positive, cornerBall_positive]
  tauto

theorem grid20 {i j k : ℕ} (hi : i < 20) (hj : j < 20) (hk : k < 20) : InGrid 20 (i, j, k) := ⟨hi, hj, hk⟩

/-- exactly the six nodes of the octahedron, in grid coordinates -/
theorem mem_octaEdges (v : V3) : v ∈ octaEdges ↔ v + ⟨-19, -19, -19⟩ ∈ octaPoints := by
  have pt : ∀ x y z : ℝ, v + ⟨-19, -19, -19⟩ = (⟨x, y, z⟩ : V3) ↔ v = ⟨x + 19, y + 19, z + 19⟩ := by
    intro x y z
    constructor
    · intro h
      rw [V3.ext_iff] at h ⊢
      simp only [add_x, add_y, add_z] at h ⊢
      refine ⟨by linarith [h.1], by linarith [h.2.1], by linarith [h.2.2]⟩
    · rintro rfl
      ext <;> simp
  simp only [octaPoints, List.mem_cons, List.not_mem_nil, or_false, pt]
  constructor
  · intro h
    obtain ⟨⟨a, b⟩, hab, rfl⟩ := List.mem_map.mp h
    obtain ⟨-, -, hn, hd⟩ := mem_crossedEdges.mp hab
    rw [cornerBall_positive, cornerBall_positive] at hd
    obtain ⟨i, j, k⟩ := a
    by_cases h1 : (i, j, k) = (18, 18, 18)
    · simp only [Prod.mk.injEq] at h1
      obtain ⟨rfl, rfl, rfl⟩ := h1
      rcases hn with rfl | rfl | rfl
      · right; left; simp only [midNode, node]; ext <;> norm_num
      · right; right; right; left; simp only [midNode, node]; ext <;> norm_num
      · right; right; right; right; right; simp only [midNode, node]; ext <;> norm_num
    · have h2 : b = (18, 18, 18) := by
        by_contra h2
        exact hd ⟨fun h => absurd h h1, fun h => absurd h h2⟩
      subst h2
      rcases hn with h | h | h <;> simp only [Prod.mk.injEq] at h
      · obtain ⟨e1, rfl, rfl⟩ := h
        obtain rfl : i = 17 := by omega
        left; simp only [midNode, node]; ext <;> norm_num
      · obtain ⟨rfl, e1, rfl⟩ := h
        obtain rfl : j = 17 := by omega
        right; right; left; simp only [midNode, node]; ext <;> norm_num
      · obtain ⟨rfl, rfl, e1⟩ := h
        obtain rfl : k = 17 := by omega
        right; right; right; right; left; simp only [midNode, node]; ext <;> norm_num
  · rintro (rfl | rfl | rfl | rfl | rfl | rfl)
    · have := octa_mid (a := (17, 18, 18)) (b := (18, 18, 18)) (grid20 (by norm_num) (by norm_num) (by norm_num)) (grid20 (by norm_num) (by norm_num) (by norm_num)) (Or.inl rfl) (by simp)
      convert this using 1
      simp only [midNode, node]; ext <;> norm_num
    · have := octa_mid (a := (18, 18, 18)) (b := (19, 18, 18)) (grid20 (by norm_num) (by norm_num) (by norm_num)) (grid20 (by norm_num) (by norm_num) (by norm_num)) (Or.inl rfl) (by simp)
      convert this using 1
      simp only [midNode, node]; ext <;> norm_num
    · have := octa_mid (a := (18, 17, 18)) (b := (18, 18, 18)) (grid20 (by norm_num) (by norm_num) (by norm_num)) (grid20 (by norm_num) (by norm_num) (by norm_num)) (Or.inr (Or.inl rfl)) (by simp)
      convert this using 1
      simp only [midNode, node]; ext <;> norm_num
    · have := octa_mid (a := (18, 18, 18)) (b := (18, 19, 18)) (grid20 (by norm_num) (by norm_num) (by norm_num)) (grid20 (by norm_num) (by norm_num) (by norm_num)) (Or.inr (Or.inl rfl)) (by simp)
      convert this using 1
      simp only [midNode, node]; ext <;> norm_num
    · have := octa_mid (a := (18, 18, 17)) (b := (18, 18, 18)) (grid20 (by norm_num) (by norm_num) (by norm_num)) (grid20 (by norm_num) (by norm_num) (by norm_num)) (Or.inr (Or.inr rfl)) (by simp)
      convert this using 1
      simp only [midNode, node]; ext <;> norm_num
    · have := octa_mid (a := (18, 18, 18)) (b := (18, 18, 19)) (grid20 (by norm_num) (by norm_num) (by norm_num)) (grid20 (by norm_num) (by norm_num) (by norm_num)) (Or.inr (Or.inr rfl)) (by simp)
      convert this using 1
      simp only [midNode, node]; ext <;> norm_num

/-- a point of the triangle of three vertices of one cell at the corner `(18, 18, 18)` is on the crude surface -/
theorem octa_face (c : Idx) (hc1 : c.1 = 17 ∨ c.1 = 18) (hc2 : c.2.1 = 17 ∨ c.2.1 = 18) (hc3 : c.2.2 = 17 ∨ c.2.2 = 18) (u v w p : V3)
    (hu : u ∈ octaPoints) (hv : v ∈ octaPoints) (hw : w ∈ octaPoints)
    (iu : InCell 2 c (u - ⟨-19, -19, -19⟩)) (iv : InCell 2 c (v - ⟨-19, -19, -19⟩)) (iw : InCell 2 c (w - ⟨-19, -19, -19⟩))
    (hp : InTriangle u v w p) :
    ∃ t ∈ crudeFaces 20 (sampleVolume cornerBall 19 20) 2 octaEdges, InFace (octaEdges.map (· + ⟨-19, -19, -19⟩)) t p := by
  have get : ∀ q ∈ octaPoints, ∃ m, m < octaEdges.length ∧ octaEdges[m]? = some (q - ⟨-19, -19, -19⟩) := by
    intro q hq
    have : q - ⟨-19, -19, -19⟩ ∈ octaEdges := by
      rw [mem_octaEdges, sub_add_cancel]
      exact hq
    obtain ⟨m, hm, e⟩ := List.mem_iff_getElem.mp this
    exact ⟨m, hm, by rw [List.getElem?_eq_getElem hm, e]⟩
  obtain ⟨m1, l1, e1⟩ := get u hu
  obtain ⟨m2, l2, e2⟩ := get v hv
  obtain ⟨m3, l3, e3⟩ := get w hw
  refine ⟨(m1, m2, m3), ?_, u, v, w, ?_, ?_, ?_, hp⟩
  · unfold crudeFaces
    rw [List.mem_filter, mem_allIdx]
    refine ⟨⟨l1, l2, l3⟩, ?_⟩
    rw [decide_eq_true_eq]
    refine ⟨c, ⟨⟨by dsimp only; omega, by dsimp only; omega, by dsimp only; omega⟩, ⟨(18, 18, 18), ⟨?_, ?_, ?_⟩, (cornerBall_positive _).mpr rfl⟩,
      ⟨if c.1 = 17 then 17 else 19, c.2.1, c.2.2⟩, ⟨?_, Or.inl rfl, Or.inl rfl⟩, ?_⟩, ?_⟩
    · dsimp only; omega
    · dsimp only; omega
    · dsimp only; omega
    · dsimp only; split_ifs <;> omega
    · rw [cornerBall_positive]
      intro h
      simp only [Prod.mk.injEq] at h
      have := h.1
      split_ifs at this <;> omega
    · intro m hm
      simp only [tri, List.mem_cons, List.not_mem_nil, or_false] at hm
      rcases hm with rfl | rfl | rfl
      · exact ⟨_, e1, iu⟩
      · exact ⟨_, e2, iv⟩
      · exact ⟨_, e3, iw⟩
  · rw [List.getElem?_map, e1]; simp
  · rw [List.getElem?_map, e2]; simp
  · rw [List.getElem?_map, e3]; simp

/-- the outer faces of the octahedron are on the crude surface -/
theorem octa_outer (p : V3) (h : OnOuterSurface octaPoints octaTets p) :
    ∃ t ∈ crudeFaces 20 (sampleVolume cornerBall 19 20) 2 octaEdges, InFace (octaEdges.map (· + ⟨-19, -19, -19⟩)) t p := by
  obtain ⟨i, e, hi, t, ht, huniq, u, v, w, h1, h2, h3, hp⟩ := h
  have inner : ∀ (j : ℕ) (e' : Q4 ℕ), octaTets[j]? = some e' → (∀ m ∈ tri t, m ∈ e'.toList) → i ≠ j → False :=
    fun j e' hj hm hne => hne (huniq j e' hj hm).symm
  have mem : ∀ {m : ℕ} {q : V3}, octaPoints[m]? = some q → q ∈ octaPoints := fun h => List.mem_of_getElem? h
  have hlt : i < 4 := by
    by_contra hge
    rw [List.getElem?_eq_none (by simp [octaTets]; omega)] at hi
    cases hi
  have fin : ∀ c : Idx, (c.1 = 17 ∨ c.1 = 18) → (c.2.1 = 17 ∨ c.2.1 = 18) → (c.2.2 = 17 ∨ c.2.2 = 18) →
      InCell 2 c (u - ⟨-19, -19, -19⟩) → InCell 2 c (v - ⟨-19, -19, -19⟩) → InCell 2 c (w - ⟨-19, -19, -19⟩) → 
      ∃ t ∈ crudeFaces 20 (sampleVolume cornerBall 19 20) 2 octaEdges, InFace (octaEdges.map (· + ⟨-19, -19, -19⟩)) t p :=
    fun c a1 a2 a3 b1 b2 b3 => octa_face c a1 a2 a3 u v w p (mem h1) (mem h2) (mem h3) b1 b2 b3 hp
  have cases4 : i = 0 ∨ i = 1 ∨ i = 2 ∨ i = 3 := by omega
  rcases cases4 with rfl | rfl | rfl | rfl
  all_goals
    simp only [octaTets, List.getElem?_cons_zero, List.getElem?_cons_succ, Option.some.injEq] at hi
    subst hi
    simp only [fourFaces, List.mem_cons, List.not_mem_nil, or_false] at ht
    rcases ht with rfl | rfl | rfl | rfl
  all_goals
    first
    | (exfalso; refine inner 0 ⟨0, 1, 2, 4⟩ rfl ?_ ?_ <;> decide)
    | (exfalso; refine inner 1 ⟨0, 1, 2, 5⟩ rfl ?_ ?_ <;> decide)
    | (exfalso; refine inner 2 ⟨0, 1, 3, 4⟩ rfl ?_ ?_ <;> decide)
    | (exfalso; refine inner 3 ⟨0, 1, 3, 5⟩ rfl ?_ ?_ <;> decide)
    | skip
  all_goals
    simp only [octaPoints, List.getElem?_cons_zero, List.getElem?_cons_succ, Option.some.injEq] at h1 h2 h3
    subst h1 h2 h3
  · exact fin (17, 17, 17) (by simp) (by simp) (by simp) (by norm_num [InCell]) (by norm_num [InCell]) (by norm_num [InCell])
  · exact fin (18, 17, 17) (by simp) (by simp) (by simp) (by norm_num [InCell]) (by norm_num [InCell]) (by norm_num [InCell])
  · exact fin (17, 17, 18) (by simp) (by simp) (by simp) (by norm_num [InCell]) (by norm_num [InCell]) (by norm_num [InCell])
  · exact fin (18, 17, 18) (by simp) (by simp) (by simp) (by norm_num [InCell]) (by norm_num [InCell]) (by norm_num [InCell])
  · exact fin (17, 18, 17) (by simp) (by simp) (by simp) (by norm_num [InCell]) (by norm_num [InCell]) (by norm_num [InCell])
  · exact fin (18, 18, 17) (by simp) (by simp) (by simp) (by norm_num [InCell]) (by norm_num [InCell]) (by norm_num [InCell])
  · exact fin (17, 18, 18) (by simp) (by simp) (by simp) (by norm_num [InCell]) (by norm_num [InCell]) (by norm_num [InCell])
  · exact fin (18, 18, 18) (by simp) (by simp) (by simp) (by norm_num [InCell]) (by norm_num [InCell]) (by norm_num [InCell])

/-- the scene: a mesh is generated -/
theorem octa_generated : ∃ mesh, meshFromLevelset crudeMC octaBuild cornerBall 19 4 = .ok mesh ∧ mesh.coord = octaPoints ∧ mesh.enod = octaTets := by
  have hmc : crudeMC 20 (sampleVolume cornerBall 19 20) ⟨2, 2, 2⟩ = .ok (octaEdges, crudeFaces 20 (sampleVolume cornerBall 19 20) 2 octaEdges) := by
    unfold crudeMC
    rw [if_pos]
    · rfl
    · exact ⟨⟨(18, 18, 18), grid20 (by norm_num) (by norm_num) (by norm_num), (cornerBall_positive _).mpr rfl⟩,
        (0, 0, 0), grid20 (by norm_num) (by norm_num) (by norm_num), fun h => by
          have := (cornerBall_positive _).mp h
          simp at this⟩
  have hmem : (⟨35, 36, 36⟩ : V3) ∈ octaEdges := by
    rw [mem_octaEdges]
    simp only [octaPoints, List.mem_cons]
    left; ext <;> norm_num
  have hne : octaEdges ≠ [] := List.ne_nil_of_mem hmem
  have hfn : crudeFaces 20 (sampleVolume cornerBall 19 20) 2 octaEdges ≠ [] :=
    List.ne_nil_of_mem (crude_used (by norm_num) 0 (List.length_pos_of_mem hmem))
  have e1 : gridAxis 19 20 1 - gridAxis 19 20 0 = 2 := by unfold gridAxis; norm_num
  have e0 : gridPoint 19 20 0 0 0 = ⟨-19, -19, -19⟩ := by unfold gridPoint gridAxis; ext <;> simp
  have hsurf : surfaceOf crudeMC cornerBall 19 20 =
      .ok (octaEdges.map (· + ⟨-19, -19, -19⟩), crudeFaces 20 (sampleVolume cornerBall 19 20) 2 octaEdges) := by
    unfold surfaceOf
    rw [e1, e0]
    dsimp only
    rw [hmc]
    dsimp only
    rw [if_neg]
    rw [List.length_eq_zero_iff, List.length_eq_zero_iff]
    exact fun h => h.elim hne hfn
  have hels : ∀ t ∈ elements octaPoints octaTets, sixVolume t = 2 ∧ signedVolume t ≠ 0 := by
    intro t ht
    simp only [elements, octaTets, Q4.map, octaPoints, List.map_cons, List.map_nil, List.mem_cons, List.not_mem_nil, or_false, List.getD_cons_zero,
      List.getD_cons_succ] at ht
    rcases ht with rfl | rfl | rfl | rfl <;>
      (constructor
       · simp only [sixVolume, V3.dot, V3.cross, sub_x, sub_y, sub_z]; norm_num
       · simp only [signedVolume, V3.dot, V3.cross, sub_x, sub_y, sub_z]; norm_num)
  have hbuild : octaBuild (octaEdges.map (· + ⟨-19, -19, -19⟩)) (crudeFaces 20 (sampleVolume cornerBall 19 20) 2 octaEdges) (4 ^ 3 / 6) =
      .ok (octaPoints, octaTets) := by
    unfold octaBuild
    rw [if_pos]
    refine ⟨?_, ?_, octa_outer, ?_⟩
    · intro p hp
      apply subset_convexHull
      refine List.mem_map.mpr ⟨p - ⟨-19, -19, -19⟩, ?_, by simp⟩
      rw [mem_octaEdges, sub_add_cancel]
      exact hp
    · intro v hv
      obtain ⟨w, hw, rfl⟩ := List.mem_map.mp hv
      exact (mem_octaEdges w).mp hw
    · intro t ht
      rw [(hels t ht).1]
      norm_num
  have hnew : TetraMesh.new octaPoints octaTets = .ok (TetraMesh.ofData octaPoints octaTets) := by
    unfold TetraMesh.new
    rw [if_pos, if_pos]
    · exact fun t ht => (hels t ht).2
    · intro q hq i hi
      have hl : octaPoints.length = 6 := rfl
      simp only [octaTets, List.mem_cons, List.not_mem_nil, or_false] at hq
      rcases hq with rfl | rfl | rfl | rfl <;> simp only [Q4.toList, List.mem_cons, List.not_mem_nil, or_false] at hi <;> omega
  refine ⟨TetraMesh.ofData octaPoints octaTets, ?_, rfl, rfl⟩
  unfold meshFromLevelset
  rw [if_neg (by norm_num), gridCount_eq (by norm_num) (by norm_num), scene_samples, hsurf]
  dsimp only
  rw [hbuild]
  dsimp only
  rw [if_neg, hnew]
  simp [octaPoints, octaTets]

/-- non-vacuity of all C86 theorems: marching cubes and a mesher meeting the specifications, a continuous level set, and a mesh generated
from it, with a point on its outer surface -/
example : IsMarchingCubes crudeMC ∧ IsTetBuild octaBuild ∧ ContinuousOnLines cornerBall ∧ ∃ mesh p,
    meshFromLevelset crudeMC octaBuild cornerBall 19 4 = .ok mesh ∧ OnOuterSurface mesh.coord mesh.enod p := by
  obtain ⟨mesh, h, hc, he⟩ := octa_generated
  refine ⟨crudeMC_spec, octaBuild_spec, cornerBall_cont, mesh, ⟨16, 17, 17⟩, h, ?_⟩
  rw [hc, he]
  refine ⟨0, ⟨0, 1, 2, 4⟩, rfl, (0, 2, 4), by simp [fourFaces], ?_, ⟨16, 17, 17⟩, ⟨17, 16, 17⟩, ⟨17, 17, 16⟩, rfl, rfl, rfl, 1, 0, 0, by norm_num,
    by norm_num, by norm_num, by norm_num, ?_⟩
  · intro j e' hj hm
    have hlt : j < 4 := by
      by_contra hge
      rw [List.getElem?_eq_none (by simp [octaTets]; omega)] at hj
      cases hj
    have cases4 : j = 0 ∨ j = 1 ∨ j = 2 ∨ j = 3 := by omega
    rcases cases4 with rfl | rfl | rfl | rfl
    · rfl
    all_goals
      simp only [octaTets, List.getElem?_cons_zero, List.getElem?_cons_succ, Option.some.injEq] at hj
      subst hj
      simp [tri, Q4.toList] at hm
  · ext <;> simp

/-- non-vacuity of `C86_seen`: a ball of radius 5 in a cube of half side 19, and a mesher that does not fail -/
example : ∃ mesh, meshFromLevelset crudeMC (fun _ _ _ => .ok (octaPoints, octaTets)) (fun p => 5 - norm p) 19 4 = .ok mesh := by
  obtain ⟨mesh, h, hc, he⟩ := octa_generated
  have hnew : TetraMesh.new octaPoints octaTets = .ok mesh := by
    unfold meshFromLevelset at h
    split_ifs at h
    split at h
    · cases h
    · split at h
      · cases h
      · rename_i pts els hb
        split_ifs at h
        have : mesh.coord = pts ∧ mesh.enod = els := by
          unfold TetraMesh.new at h
          split_ifs at h
          obtain rfl := Except.ok.inj h
          exact ⟨rfl, rfl⟩
        rw [← hc, ← he, this.1, this.2]
        exact h
  refine C86_seen crudeMC _ crudeMC_spec _ 19 4 (by norm_num) (by norm_num) ?_ 0 ?_ ?_ ?_
  · intro verts faces _ _
    exact ⟨_, _, mesh, rfl, by simp [octaPoints], by simp [octaTets], hnew⟩
  · simp [InCube]
  · intro p hp
    unfold V3.dist at hp
    rw [sub_zero] at hp
    show 0 < 5 - norm p
    linarith
  · show 5 - norm (⟨-19, -19, -19⟩ : V3) ≤ 0
    have : 5 ≤ norm (⟨-19, -19, -19⟩ : V3) := by
      unfold V3.norm
      apply Real.le_sqrt_of_sq_le
      norm_num [nsq, V3.dot]
    linarith

end XRD
