import Verif.Lemmas.Mesh
import Verif.Props.Motion
import Mathlib.Data.List.GetD

/-! Properties C11, C13, C14, C15: geometry attached to a tetrahedral mesh. -/

namespace XRD.Spec
open XRD V3
/-- `n` is the outward unit normal of the face `p q r` of a solid whose remaining vertex is `opp`. -/
def OutwardUnitNormal (n p q r opp : V3) : Prop :=
  norm n = 1 ∧ dot n (q - p) = 0 ∧ dot n (r - p) = 0 ∧ dot n (opp - p) < 0
/-- Four points lie in one plane. -/
def Coplanar (p q r s : V3) : Prop := ∃ n : V3, n ≠ 0 ∧ dot n (q - p) = 0 ∧ dot n (r - p) = 0 ∧ dot n (s - p) = 0
/-- Area of the triangle `p q r`. -/
noncomputable def area (p q r : V3) : ℝ := norm (cross (q - p) (r - p)) / 2
/-- Distance of `s` from the plane through `p` with unit normal `n`. -/
noncomputable def height (n p s : V3) : ℝ := |dot n (s - p)|
end XRD.Spec

namespace XRD
open V3 M3

theorem TetraMesh.new_ok {coord : List V3} {enod : List (Q4 ℕ)} {m : TetraMesh} (h : TetraMesh.new coord enod = .ok m) :
    m = TetraMesh.ofData coord enod ∧ (∀ e ∈ enod, ∀ i ∈ e.toList, i < coord.length) ∧
      ∀ t ∈ elements coord enod, signedVolume t ≠ 0 := by
  unfold TetraMesh.new at h
  split_ifs at h with h1 h2
  exact ⟨(Except.ok.inj h).symm, h1, h2⟩

/-- A mesh of two tetrahedra, one of either orientation. -/
def demoCoord : List V3 := [⟨0, 0, 0⟩, ⟨1, 0, 0⟩, ⟨0, 2, 0⟩, ⟨0, 0, 3⟩, ⟨1, 1, 1⟩]
def demoEnod : List (Q4 ℕ) := [⟨0, 1, 2, 3⟩, ⟨1, 2, 4, 3⟩]
noncomputable def demoMesh : TetraMesh := TetraMesh.ofData demoCoord demoEnod

theorem demoMesh_new : TetraMesh.new demoCoord demoEnod = .ok demoMesh := by
  unfold TetraMesh.new
  rw [if_pos, if_pos]
  · rfl
  · intro t ht
    simp [elements, demoEnod, Q4.map, demoCoord] at ht
    rcases ht with rfl | rfl <;> simp [signedVolume, cross, V3.dot] <;> norm_num
  · decide

/-! ### C13 -/

theorem sphereOf_contains {t : Tet} (ht : signedVolume t ≠ 0) (i : ℕ) : norm (t.get i - (sphereOf t).1) ≤ (sphereOf t).2 := by
  have key : norm (t.a - (sphereOf t).1) ≤ (sphereOf t).2 ∧ norm (t.b - (sphereOf t).1) ≤ (sphereOf t).2 ∧
      norm (t.c - (sphereOf t).1) ≤ (sphereOf t).2 ∧ norm (t.d - (sphereOf t).1) ≤ (sphereOf t).2 := by
    unfold sphereOf
    extract_lets ij others o1 o2 s1 d1 d2 third s2 s3
    split_ifs with h1 h2
    · obtain ⟨hd1, hd2⟩ := h1
      have hp := sphere2_contains (t.get ij.1) (t.get ij.2)
      have hij : ij ∈ pairTable ∨ ij = (0, 1) := by
        by_cases hlt : argmax (sidesOf t) < pairTable.length
        · left; show pairTable.getD _ _ ∈ _
          rw [List.getD_eq_getElem _ _ hlt]; exact List.getElem_mem hlt
        · right; show pairTable.getD _ _ = _
          rw [List.getD_eq_default _ _ (not_lt.mp hlt)]
      have e1 : norm (o1 - s1.1) ≤ s1.2 := by linarith
      have e2 : norm (o2 - s1.1) ≤ s1.2 := by linarith
      have hp1 : norm (t.get ij.1 - s1.1) ≤ s1.2 := hp.1
      have hp2 : norm (t.get ij.2 - s1.1) ≤ s1.2 := hp.2
      generalize s1 = s at *
      have : ij ∈ pairTable := by
        rcases hij with h | h
        · exact h
        · rw [h]; decide
      simp only [pairTable, List.mem_cons, List.not_mem_nil, or_false] at this
      rcases this with h | h | h | h | h | h <;>
        (simp only [o1, o2, others, h] at e1 e2; simp only [h] at hp1 hp2
         simp [Q4.get] at e1 e2 hp1 hp2
         refine ⟨?_, ?_, ?_, ?_⟩ <;> assumption)
    · obtain ⟨ha, hb, hc, hd⟩ := h2
      exact ⟨by linarith, by linarith, by linarith, by linarith⟩
    · exact sphere4_contains ht
  obtain ⟨ha, hb, hc, hd⟩ := key
  match i with
  | 0 => exact ha
  | 1 => exact hb
  | 2 => exact hc
  | _ + 3 => exact hd

/-- C13: in every mesh that can be built, every vertex of every element is within `eradius` of `espherecentroids`. -/
theorem C13_bounding_spheres (coord : List V3) (enod : List (Q4 ℕ)) (m : TetraMesh)
    (hm : TetraMesh.new coord enod = .ok m) (i : ℕ) (hi : i < enod.length) (j : ℕ) (hj : j < 4) :
    ∃ c r p, m.espherecentroids[i]? = some c ∧ m.eradius[i]? = some r ∧
      m.coord[enod[i].get j]? = some p ∧ V3.dist p c ≤ r := by
  obtain ⟨rfl, hin, hvol⟩ := TetraMesh.new_ok hm
  have hidx : enod[i].get j < coord.length := by
    apply hin _ (List.getElem_mem hi)
    match j, hj with
    | 0, _ => simp [Q4.get, Q4.toList]
    | 1, _ => simp [Q4.get, Q4.toList]
    | 2, _ => simp [Q4.get, Q4.toList]
    | 3, _ => simp [Q4.get, Q4.toList]
  set t : Tet := (enod[i]).map fun k => coord.getD k 0 with ht
  have hmem : t ∈ elements coord enod := List.mem_map.mpr ⟨_, List.getElem_mem hi, rfl⟩
  refine ⟨(sphereOf t).1, (sphereOf t).2, coord[enod[i].get j], ?_, ?_, ?_, ?_⟩
  · simp [TetraMesh.ofData, elements, hi, ht]
  · simp [TetraMesh.ofData, elements, hi, ht]
  · simp [TetraMesh.ofData, hidx]
  · have := sphereOf_contains (hvol t hmem) j
    rw [ht, get_map, List.getD_eq_getElem _ _ hidx, ← ht] at this
    exact this

example : TetraMesh.new demoCoord demoEnod = .ok demoMesh := demoMesh_new

/-! ### C14 -/

theorem faceNormal_outward {c p q r opp : V3} (hv : (cross (q - p) (r - p)).dot (opp - p) ≠ 0)
    (hc : c = (1 / 4 : ℝ) • (p + q + r + opp)) : Spec.OutwardUnitNormal (faceNormal c (p, q, r)) p q r opp := by
  unfold faceNormal
  dsimp only
  set n := cross (q - p) (r - p) with hn
  have hn0 : n ≠ 0 := by
    intro h; rw [h, V3.dot_zero_left] at hv; exact hv rfl
  have hpos := V3.norm_pos.mpr hn0
  have e1 : n.dot (q - p) = 0 := by rw [hn]; simp [cross, V3.dot]; ring
  have e2 : n.dot (r - p) = 0 := by rw [hn]; simp [cross, V3.dot]; ring
  have e3 : (mean3 p q r - c).dot n = -(1 / 4) * n.dot (opp - p) := by
    rw [hc]
    have e1' := e1; have e2' := e2
    simp only [mean3, V3.dot, V3.sub_x, V3.sub_y, V3.sub_z, V3.smul_x, V3.smul_y, V3.smul_z, V3.add_x, V3.add_y, V3.add_z] at *
    linear_combination (1/12) * e1' + (1/12) * e2'
  have hs : ∀ s : ℝ, |s| = 1 → s * n.dot (opp - p) < 0 →
      Spec.OutwardUnitNormal (s • ((1 / n.norm) • n)) p q r opp := by
    intro s hs1 hs2
    refine ⟨?_, ?_, ?_, ?_⟩
    · rw [V3.norm_smul, V3.norm_smul, hs1, abs_of_pos (by positivity)]; field_simp
    · have : (s • ((1 / n.norm) • n)).dot (q - p) = s * (1 / n.norm) * n.dot (q - p) := by simp [V3.dot]; ring
      rw [this, e1, mul_zero]
    · have : (s • ((1 / n.norm) • n)).dot (r - p) = s * (1 / n.norm) * n.dot (r - p) := by simp [V3.dot]; ring
      rw [this, e2, mul_zero]
    · have : (s • ((1 / n.norm) • n)).dot (opp - p) = (1 / n.norm) * (s * n.dot (opp - p)) := by simp [V3.dot]; ring
      rw [this]
      exact mul_neg_of_pos_of_neg (by positivity) hs2
  rw [e3]
  split_ifs with h
  · exact hs 1 (by simp) (by
      rcases lt_or_gt_of_ne hv with h' | h' <;> linarith)
  · exact hs (-1) (by simp) (by linarith)

theorem normalsOf_outward {t : Tet} (ht : signedVolume t ≠ 0) :
    Spec.OutwardUnitNormal (normalsOf t).a t.a t.b t.c t.d ∧ Spec.OutwardUnitNormal (normalsOf t).b t.a t.b t.d t.c ∧
    Spec.OutwardUnitNormal (normalsOf t).c t.a t.c t.d t.b ∧ Spec.OutwardUnitNormal (normalsOf t).d t.b t.c t.d t.a := by
  have hv : (cross (t.b - t.a) (t.c - t.a)).dot (t.d - t.a) ≠ 0 := by
    intro h; apply ht; unfold signedVolume; rw [h, mul_zero]
  have hc : ∀ x : V3, mean4 ((facesOf t).map (fun f => mean3 f.1 f.2.1 f.2.2)) = (1 / 4 : ℝ) • (t.a + t.b + t.c + t.d) := by
    intro _; simp only [mean4, mean3, facesOf, Q4.map]; ext <;> simp <;> ring
  have hc := hc 0
  unfold normalsOf
  dsimp only
  rw [hc]
  refine ⟨faceNormal_outward hv rfl, faceNormal_outward ?_ ?_, faceNormal_outward ?_ ?_, faceNormal_outward ?_ ?_⟩
  · intro h; apply hv
    simp only [cross, V3.dot, V3.sub_x, V3.sub_y, V3.sub_z] at h ⊢; linear_combination -h
  · ext <;> simp <;> ring
  · intro h; apply hv
    simp only [cross, V3.dot, V3.sub_x, V3.sub_y, V3.sub_z] at h ⊢; linear_combination h
  · ext <;> simp <;> ring
  · intro h; apply hv
    simp only [cross, V3.dot, V3.sub_x, V3.sub_y, V3.sub_z] at h ⊢; linear_combination -h
  · ext <;> simp <;> ring

/-- C14: in every mesh that can be built the four `enormals` of element `i` are the outward unit normals of its faces
`(0,1,2)`, `(0,1,3)`, `(0,2,3)`, `(1,2,3)`. -/
theorem C14_outward_unit_normals (coord : List V3) (enod : List (Q4 ℕ)) (m : TetraMesh)
    (hm : TetraMesh.new coord enod = .ok m) (i : ℕ) (hi : i < enod.length) :
    ∃ n v : Q4 V3, m.enormals[i]? = some n ∧
      (m.coord[enod[i].a]? = some v.a ∧ m.coord[enod[i].b]? = some v.b ∧ m.coord[enod[i].c]? = some v.c ∧
        m.coord[enod[i].d]? = some v.d) ∧
      Spec.OutwardUnitNormal n.a v.a v.b v.c v.d ∧ Spec.OutwardUnitNormal n.b v.a v.b v.d v.c ∧
      Spec.OutwardUnitNormal n.c v.a v.c v.d v.b ∧ Spec.OutwardUnitNormal n.d v.b v.c v.d v.a := by
  obtain ⟨rfl, hin, hvol⟩ := TetraMesh.new_ok hm
  have hidx := hin _ (List.getElem_mem hi)
  simp only [Q4.toList, List.mem_cons, List.not_mem_nil, or_false] at hidx
  have h0 := hidx _ (Or.inl rfl)
  have h1 := hidx _ (Or.inr (Or.inl rfl))
  have h2 := hidx _ (Or.inr (Or.inr (Or.inl rfl)))
  have h3 := hidx _ (Or.inr (Or.inr (Or.inr rfl)))
  set t : Tet := (enod[i]).map fun k => coord.getD k 0 with ht
  have hmem : t ∈ elements coord enod := List.mem_map.mpr ⟨_, List.getElem_mem hi, rfl⟩
  refine ⟨normalsOf t, t, ?_, ⟨?_, ?_, ?_, ?_⟩, normalsOf_outward (hvol t hmem)⟩
  · simp [TetraMesh.ofData, elements, hi, ht]
  · simp [TetraMesh.ofData, ht, Q4.map, h0]
  · simp [TetraMesh.ofData, ht, Q4.map, h1]
  · simp [TetraMesh.ofData, ht, Q4.map, h2]
  · simp [TetraMesh.ofData, ht, Q4.map, h3]

/-! ### C15 -/

theorem tetVolume_eq (t : Tet) : tetVolume t = |signedVolume t| := by
  unfold tetVolume
  rw [det_tr, det_edges, abs_mul]; norm_num

theorem singular_iff (u v w : V3) : (cross u v).dot w = 0 ↔ ∃ n : V3, n ≠ 0 ∧ dot n u = 0 ∧ dot n v = 0 ∧ dot n w = 0 := by
  have e : (cross u v).dot w = (!![u.x, u.y, u.z; v.x, v.y, v.z; w.x, w.y, w.z] : Matrix (Fin 3) (Fin 3) ℝ).det := by
    rw [Matrix.det_fin_three]; simp [cross, V3.dot]; ring
  rw [e, ← Matrix.exists_mulVec_eq_zero_iff]
  constructor
  · rintro ⟨x, hx, h⟩
    have h0 := congrFun h 0
    have h1 := congrFun h 1
    have h2 := congrFun h 2
    simp [Matrix.mulVec, dotProduct, Fin.sum_univ_three] at h0 h1 h2
    refine ⟨⟨x 0, x 1, x 2⟩, ?_, ?_, ?_, ?_⟩
    · intro h'
      apply hx
      have := V3.ext_iff.mp h'
      simp at this
      funext k
      fin_cases k
      · exact this.1
      · exact this.2.1
      · exact this.2.2
    · simp [V3.dot]; linarith
    · simp [V3.dot]; linarith
    · simp [V3.dot]; linarith
  · rintro ⟨n, hn, h0, h1, h2⟩
    refine ⟨![n.x, n.y, n.z], ?_, ?_⟩
    · intro h'
      apply hn
      have a0 := congrFun h' 0
      have a1 := congrFun h' 1
      have a2 := congrFun h' 2
      simp at a0 a1 a2
      ext <;> assumption
    · simp [V3.dot] at h0 h1 h2
      funext k
      fin_cases k <;> simp [Matrix.mulVec, dotProduct, Fin.sum_univ_three] <;> linarith

/-- C15: the volume used for the `volumes` column is never negative, and zero exactly for coplanar vertices. -/
theorem C15_volume_nonneg_zero_iff_coplanar (p q r s : V3) :
    0 ≤ tetVolume ⟨p, q, r, s⟩ ∧ (tetVolume ⟨p, q, r, s⟩ = 0 ↔ Spec.Coplanar p q r s) := by
  rw [tetVolume_eq]
  refine ⟨abs_nonneg _, ?_⟩
  rw [abs_eq_zero]
  unfold signedVolume Spec.Coplanar
  rw [← singular_iff]
  simp

/-- C15: the volume is one third of the area of a face times the height of the opposite vertex. -/
theorem C15_volume_is_third_base_times_height (p q r s n : V3)
    (hn : norm n = 1) (h1 : dot n (q - p) = 0) (h2 : dot n (r - p) = 0) :
    tetVolume ⟨p, q, r, s⟩ = 1 / 3 * Spec.area p q r * Spec.height n p s := by
  rw [tetVolume_eq]
  unfold signedVolume Spec.area Spec.height
  dsimp only
  set c := cross (q - p) (r - p) with hc
  -- the cross product is parallel to n
  have hpar : c = (dot n c) • n := by
    have hnn : nsq n = 1 := norm_eq_one.mp hn
    have : cross n c = 0 := by
      rw [hc]
      have e : cross n (cross (q - p) (r - p)) = (dot n (r - p)) • (q - p) - (dot n (q - p)) • (r - p) := by
        ext <;> simp [cross, V3.dot] <;> ring
      rw [e, h1, h2]; ext <;> simp
    have h3 : cross n (cross n c) = (dot n c) • n - (nsq n) • c := by
      ext <;> simp [cross, V3.dot, nsq] <;> ring
    rw [this, hnn] at h3
    have : cross n (0 : V3) = 0 := by ext <;> simp [cross]
    rw [this] at h3
    have hx := congrArg V3.x h3; have hy := congrArg V3.y h3; have hz := congrArg V3.z h3
    simp at hx hy hz
    ext <;> simp <;> linarith
  have hd : c.dot (s - p) = (dot n c) * dot n (s - p) := by
    conv_lhs => rw [hpar]
    simp [V3.dot]; ring
  have hnorm : norm c = |dot n c| := by
    conv_lhs => rw [hpar]
    rw [V3.norm_smul, hn, mul_one]
  rw [hd, hnorm, abs_mul, abs_mul]
  norm_num; ring

/-- C15: the volume does not depend on the order of the vertices. -/
theorem C15_volume_order_independent (p q r s : V3) :
    tetVolume ⟨q, p, r, s⟩ = tetVolume ⟨p, q, r, s⟩ ∧ tetVolume ⟨p, r, q, s⟩ = tetVolume ⟨p, q, r, s⟩ ∧
    tetVolume ⟨p, q, s, r⟩ = tetVolume ⟨p, q, r, s⟩ := by
  simp only [tetVolume_eq]
  refine ⟨?_, ?_, ?_⟩ <;>
    (rw [← abs_neg]; congr 1; simp only [signedVolume, cross, V3.dot, V3.sub_x, V3.sub_y, V3.sub_z]; ring)

/-- C15: the volume does not change under an orientation preserving isometry. -/
theorem C15_volume_rigid_invariant (f : V3 → V3) (hf : Spec.RigidMap f) (p q r s : V3) :
    tetVolume ⟨f p, f q, f r, f s⟩ = tetVolume ⟨p, q, r, s⟩ := by
  simp only [tetVolume_eq, signedVolume, hf.2]

/-- C15 (partial): the mesh attribute `evolumes` agrees with the volumes up to sign.  Missing: `evolumes` itself is
signed, see `C15_evolumes_fails`. -/
theorem C15_evolumes_partial (coord : List V3) (enod : List (Q4 ℕ)) (m : TetraMesh) (hm : TetraMesh.new coord enod = .ok m) :
    m.evolumes.map abs = (elements m.coord m.enod).map tetVolume := by
  obtain ⟨rfl, -, -⟩ := TetraMesh.new_ok hm
  simp only [TetraMesh.ofData, List.map_map]
  apply List.map_congr_left
  intro t _
  simp [tetVolume_eq]

/-- C15 is false of the mesh attribute `evolumes`: an element listed with the other orientation gets a negative
`evolumes` entry. -/
theorem C15_evolumes_fails :
    ∃ (coord : List V3) (enod : List (Q4 ℕ)) (m : TetraMesh), TetraMesh.new coord enod = .ok m ∧ ∃ v ∈ m.evolumes, v < 0 := by
  refine ⟨demoCoord, demoEnod, demoMesh, demoMesh_new, -(5 / 6), ?_, by norm_num⟩
  simp [demoMesh, TetraMesh.ofData, elements, demoEnod, demoCoord, Q4.map, signedVolume, cross, V3.dot]
  norm_num

example : tetVolume ⟨⟨0, 0, 0⟩, ⟨1, 0, 0⟩, ⟨0, 2, 0⟩, ⟨0, 0, 3⟩⟩ = 1 := by
  rw [tetVolume_eq]; simp [signedVolume, cross, V3.dot]; norm_num

end XRD
