import Verif.Props.Mesh2

/-! C11, exact extent: when do the node coordinates of a mesh agree with its derived geometry. -/

namespace XRD.Spec
open XRD V3
/-- the translation vector of the operation, zero unless it is a `translate` -/
def MeshOp.shift : MeshOp → V3
  | .translate v => v
  | _ => 0
/-- the sum of the `translate` vectors of a history -/
def shifts (h : List MeshOp) : V3 := (h.map MeshOp.shift).sum
end XRD.Spec

namespace XRD
open V3 M3 Spec

theorem run_append {m m' : TetraMesh} (h k : List MeshOp) : m.run (h ++ k) = .ok m' ↔ ∃ m1, m.run h = .ok m1 ∧ m1.run k = .ok m' := by
  induction h generalizing m with
  | nil => simp [TetraMesh.run]
  | cons op h ih =>
    simp only [List.cons_append, TetraMesh.run]
    cases hs : m.step op with
    | error e => simp
    | ok m1 => exact ih

theorem run_points {m m' : TetraMesh} (h : List MeshOp) (hs : m.run h = .ok m') : m'.points = m.points.map (· + shifts h) := by
  induction h generalizing m with
  | nil =>
    obtain rfl := Except.ok.inj hs
    have : (fun p : V3 => p + shifts []) = id := by funext p; ext <;> simp [shifts]
    rw [this, List.map_id]
  | cons op h ih =>
    simp only [TetraMesh.run] at hs
    split at hs
    · cases hs
    · rename_i m1 h1
      rw [ih hs]
      have hp : m1.points = m.points.map (· + op.shift) := by
        have hid : (fun p : V3 => p + (0 : V3)) = id := by funext p; ext <;> simp
        cases op with
        | translate v => obtain rfl := Except.ok.inj h1; rfl
        | update b t =>
          obtain rfl := Except.ok.inj h1
          simp only [MeshOp.shift, hid, List.map_id]; rfl
        | rotate a w =>
          simp only [TetraMesh.step, TetraMesh.rotate] at h1
          split at h1
          · cases h1
          · obtain rfl := Except.ok.inj h1
            simp only [MeshOp.shift, hid, List.map_id]; rfl
      rw [hp, List.map_map]
      apply List.map_congr_left
      intro p _
      simp only [Function.comp, shifts, List.map_cons, List.sum_cons]
      ext <;> simp <;> ring

theorem isRot_prod {Q R : M3} (hQ : IsRot Q) (hR : IsRot R) : IsRot (Q * R) := by
  refine ⟨?_, ?_, ?_⟩
  · rw [tr_mul, mul_assoc', ← mul_assoc' Q.tr, hQ.1, one_mul', hR.1]
  · rw [tr_mul, mul_assoc', ← mul_assoc' R, hR.2.1, one_mul', hQ.2.1]
  · rw [det_mul, hQ.2.2, hR.2.2, mul_one]

theorem onPoint_rigid (h : List MeshOp) (hu : ∀ op ∈ h, op.UnitAxis) : ∃ R, AffRot (onPoint h) R := by
  induction h with
  | nil => exact ⟨1, isRot_one, 0, fun p => by rw [one_mulVec]; ext <;> simp [onPoint]⟩
  | cons op h ih =>
    obtain ⟨R, hR, s, hs⟩ := MeshOp.affRot (hu op (by simp))
    obtain ⟨Q, hQ, t, ht⟩ := ih fun o ho => hu o (by simp [ho])
    refine ⟨Q * R, isRot_prod hQ hR, Q.mulVec s + t, fun p => ?_⟩
    show onPoint h (op.onPoint p) = _
    rw [hs, ht, mulVec_mul, mulVec_add]
    ext <;> simp <;> ring

theorem affRot_injective {f : V3 → V3} {R : M3} (h : AffRot f R) : Function.Injective f := by
  intro p q e
  have h1 : nsq (f p - f q) = 0 := by rw [e]; simp [nsq, V3.dot]
  rw [nsq_sub_map h] at h1
  have : p - q = 0 := nsq_eq_zero.mp h1
  have hx := congrArg V3.x this
  have hy := congrArg V3.y this
  have hz := congrArg V3.z this
  simp at hx hy hz
  ext <;> linarith

/-- a rotation that keeps the face normals of a solid tetrahedron is the identity -/
theorem rot_of_normals {R : M3} (hR : IsRot R) {t : Tet} (ht : signedVolume t ≠ 0) (h : (normalsOf t).map R.mulVec = normalsOf t) (x : V3) :
    R.mulVec x = x := by
  have key : ∀ (c p q r : V3), cross (q - p) (r - p) ≠ 0 → R.mulVec (faceNormal c (p, q, r)) = faceNormal c (p, q, r) →
      (R.mulVec x).dot (cross (q - p) (r - p)) = x.dot (cross (q - p) (r - p)) := by
    intro c p q r hn hf
    have hn' : 0 < V3.norm (cross (q - p) (r - p)) := V3.norm_pos.2 hn
    unfold faceNormal at hf
    dsimp only at hf
    set n := cross (q - p) (r - p)
    set k : ℝ := if (mean3 p q r - c).dot n ≥ 0 then 1 else -1 with hk
    have hk0 : k ≠ 0 := by rw [hk]; split_ifs <;> norm_num
    rw [mulVec_smul, mulVec_smul] at hf
    have h1 : R.mulVec n = n := by
      have hx := congrArg V3.x hf
      have hy := congrArg V3.y hf
      have hz := congrArg V3.z hf
      simp [hk0, hn'.ne'] at hx hy hz
      ext <;> assumption
    calc (R.mulVec x).dot n = (R.mulVec x).dot (R.mulVec n) := by rw [h1]
      _ = x.dot n := IsRot.dot_mulVec hR.1 x n
  have hvol : (cross (t.b - t.a) (t.c - t.a)).dot (t.d - t.a) ≠ 0 := fun e => ht (by rw [signedVolume, e, mul_zero])
  have n1 : cross (t.b - t.a) (t.c - t.a) ≠ 0 := fun e => hvol (by rw [e]; simp [V3.dot])
  have n2 : cross (t.b - t.a) (t.d - t.a) ≠ 0 := fun e => hvol (by
    have := congrArg (fun w => -(V3.dot w (t.c - t.a))) e
    simp only [V3.dot, V3.cross, zero_x, zero_y, zero_z] at this ⊢
    linarith)
  have n3 : cross (t.c - t.a) (t.d - t.a) ≠ 0 := fun e => hvol (by
    have := congrArg (fun w => V3.dot w (t.b - t.a)) e
    simp only [V3.dot, V3.cross, zero_x, zero_y, zero_z] at this ⊢
    linarith)
  have ha := congrArg Q4.a h
  have hb := congrArg Q4.b h
  have hc := congrArg Q4.c h
  have k1 := key _ _ _ _ n1 ha
  have k2 := key _ _ _ _ n2 hb
  have k3 := key _ _ _ _ n3 hc
  set z := R.mulVec x
  set u := t.b - t.a
  set v := t.c - t.a
  set w := t.d - t.a
  have ident : ∀ y : V3, (dot (cross u v) w) • y = (y.dot (cross v w)) • u - (y.dot (cross u w)) • v + (y.dot (cross u v)) • w := by
    intro y; ext <;> simp [V3.dot, V3.cross] <;> ring
  have e : (dot (cross u v) w) • z = (dot (cross u v) w) • x := by rw [ident z, ident x, k1, k2, k3]
  have hx := congrArg V3.x e
  have hy := congrArg V3.y e
  have hz := congrArg V3.z e
  simp [hvol] at hx hy hz
  ext <;> assumption

/-- C11, exact extent: take any history of mesh operations, and let `translate v` be its last `translate`.  The node coordinates end
where the operations are documented to put them exactly if the operations before that last `translate` moved every node by no more than
the sum of their own translations; and exactly then the mesh is the mesh freshly built from its coordinates.  (Without any `translate`
this always holds, `C11_mesh_consistency_partial`.) -/
theorem C11_consistent_iff (coord : List V3) (enod : List (Q4 ℕ)) (m m' : TetraMesh)
    (hm : TetraMesh.new coord enod = .ok m) (hne : enod ≠ []) (pre ms : List MeshOp) (v : V3)
    (hms : ∀ op ∈ ms, ∀ v, op ≠ .translate v) (hu : ∀ op ∈ pre ++ ms, op.UnitAxis) (hs : m.run (pre ++ .translate v :: ms) = .ok m') :
    (m'.coord = coord.map (onPoint (pre ++ .translate v :: ms)) ↔ ∀ p ∈ coord, onPoint pre p = p + shifts pre) ∧
    (TetraMesh.new m'.coord m'.enod = .ok { m' with points := m'.coord } ↔ ∀ p ∈ coord, onPoint pre p = p + shifts pre) := by
  have hm' := hm
  obtain ⟨rfl, hin, hvol⟩ := TetraMesh.new_ok hm
  have hu' : ∀ op ∈ pre ++ .translate v :: ms, op.UnitAxis := by
    intro op hop
    rcases List.mem_append.mp hop with h | h
    · exact hu op (by simp [h])
    · rcases List.mem_cons.mp h with rfl | h
      · trivial
      · exact hu op (by simp [h])
  obtain ⟨P, hP⟩ := onPoint_rigid pre fun o ho => hu o (by simp [ho])
  obtain ⟨G, hG⟩ := onPoint_rigid ms fun o ho => hu o (by simp [ho])
  have hon : onPoint (pre ++ .translate v :: ms) = fun p => onPoint ms (onPoint pre p + v) := by
    funext p; simp [onPoint, List.foldl_append, MeshOp.onPoint]
  have hcoord : m'.coord = coord.map fun p => onPoint ms (p + shifts pre + v) := by
    obtain ⟨m1, h1, h2⟩ := (run_append _ _).mp hs
    simp only [TetraMesh.run, TetraMesh.step] at h2
    have hpts := run_points _ h1
    have := run_coord ms (fun o ho => hu o (by simp [ho])) h2 (Or.inl fun op h => by
      cases op with
      | translate v => exact absurd rfl (hms _ h v)
      | update b t => trivial
      | rotate a w => trivial)
    rw [this]
    simp only [TetraMesh.translate, hpts, TetraMesh.ofData, List.map_map]
    rfl
  have hiff : m'.coord = coord.map (onPoint (pre ++ .translate v :: ms)) ↔ ∀ p ∈ coord, onPoint pre p = p + shifts pre := by
    rw [hcoord, hon, List.map_inj_left]
    refine forall₂_congr fun p _ => ?_
    rw [(affRot_injective hG).eq_iff]
    constructor
    · intro e
      have hx := congrArg V3.x e
      have hy := congrArg V3.y e
      have hz := congrArg V3.z e
      simp at hx hy hz
      ext <;> simp <;> linarith
    · intro e; rw [e]
  refine ⟨hiff, ?_⟩
  obtain ⟨e, hd, hg⟩ := run_derived (X := coord) ⟨hne, hin, hvol⟩ (ofData_derived coord enod) _ hu' hs
  have e' : m'.enod = enod := e
  constructor
  · intro hnew
    obtain ⟨heq, -, -⟩ := TetraMesh.new_ok hnew
    obtain ⟨el, es, rfl⟩ := List.exists_cons_of_ne_nil hne
    have hn := (congrArg TetraMesh.enormals heq).symm.trans hd.enormals
    have hc := (congrArg TetraMesh.ecentroids heq).symm.trans hd.ecentroids
    simp only [TetraMesh.ofData, e', hcoord, hon] at hn hc
    rw [elements_map hin, elements_map hin] at hn hc
    simp only [elements, List.map_cons, List.cons.injEq] at hn hc
    set t : Tet := el.map fun i => coord.getD i 0 with htt
    have ht : signedVolume t ≠ 0 := hvol t (by simp [elements, htt])
    have hF : AffRot (fun p => onPoint ms (onPoint pre p + v)) (G * P) := by
      obtain ⟨hPr, s, hsP⟩ := hP
      obtain ⟨hGr, r, hrG⟩ := hG
      refine ⟨isRot_prod hGr hPr, G.mulVec (s + v) + r, fun p => ?_⟩
      show onPoint ms (onPoint pre p + v) = _
      rw [hrG, hsP, mulVec_mul, show P.mulVec p + s + v = P.mulVec p + (s + v) from by ext <;> simp <;> ring, mulVec_add]
      ext <;> simp <;> ring
    have hS : AffRot (fun p => onPoint ms (p + shifts pre + v)) G := by
      obtain ⟨hGr, r, hrG⟩ := hG
      refine ⟨hGr, G.mulVec (shifts pre + v) + r, fun p => ?_⟩
      show onPoint ms (p + shifts pre + v) = _
      rw [hrG, show p + shifts pre + v = p + (shifts pre + v) from by ext <;> simp <;> ring, mulVec_add]
      ext <;> simp <;> ring
    have n0 := hn.1
    rw [normalsOf_map hF, normalsOf_map hS] at n0
    have c0 := hc.1
    rw [← hF.mean4, ← hS.mean4] at c0
    have c1 := affRot_injective hG c0
    have hGi : Function.Injective G.mulVec := by
      obtain ⟨hGr, r, hrG⟩ := hG
      exact affRot_injective (f := G.mulVec) (R := G) ⟨hGr, 0, fun p => by ext <;> simp⟩
    have hfix : (normalsOf t).map P.mulVec = normalsOf t := by
      have ha := congrArg Q4.a n0
      have hb := congrArg Q4.b n0
      have hc := congrArg Q4.c n0
      have hd := congrArg Q4.d n0
      simp only [Q4.map, mulVec_mul] at ha hb hc hd
      have ha := hGi ha
      have hb := hGi hb
      have hc := hGi hc
      have hd := hGi hd
      simp only [Q4.map, ← ha, ← hb, ← hc, ← hd]
    have hid := rot_of_normals hP.1 ht hfix
    obtain ⟨-, s, hsP⟩ := hP
    rw [hsP, hid] at c1
    intro p _
    rw [hsP, hid]
    have hx := congrArg V3.x c1
    have hy := congrArg V3.y c1
    have hz := congrArg V3.z c1
    simp at hx hy hz
    ext <;> simp <;> linarith
  · intro h
    have hc := hiff.mpr h
    obtain ⟨fresh, hf, h1, h2, h3, h4, h5, h6⟩ :=
      C11_derived_geometry_follows_documented_positions coord enod _ m' hm' hne _ hu' hs
    rw [hc, e', hf]
    congr 1
    obtain ⟨rfl, -, -⟩ := TetraMesh.new_ok hf
    ext1
    · rfl
    · rfl
    · rfl
    · exact h1.symm
    · exact h2.symm
    · exact h3.symm
    · exact h4.symm
    · exact h5.symm
    · exact h6.symm

/-- The two sides of `C11_consistent_iff` can be true: four quarter turns about `z`, then a `translate`.  (They are false in
`C11_mesh_consistency_fails`: an `update`, then a `translate`.) -/
example : ∃ pre : List MeshOp, pre.length = 4 ∧ (∀ op ∈ pre, ∃ a w, op = .rotate a w ∧ 0 < w) ∧ (∀ op ∈ pre ++ [], op.UnitAxis) ∧
    (∃ m', demoMesh.run (pre ++ [.translate ⟨1, 2, 3⟩]) = .ok m') ∧ ∀ p ∈ demoCoord, onPoint pre p = p + shifts pre := by
  have hpi := Real.pi_pos
  have hM : Motion.new ⟨0, 0, 1⟩ (Real.pi / 2) 0 = .ok ⟨⟨0, 0, 1⟩, Real.pi / 2, 0, 0⟩ := by
    unfold Motion.new
    rw [if_pos ⟨by linarith, by linarith⟩, if_pos]
    unfold axisAccepted allclose
    rw [norm_ez]; norm_num
  refine ⟨List.replicate 4 (.rotate ⟨0, 0, 1⟩ (Real.pi / 2)), rfl, ?_, ?_, ?_, ?_⟩
  · intro op hop
    obtain rfl := List.eq_of_mem_replicate hop
    exact ⟨_, _, rfl, by linarith⟩
  · intro op hop
    rw [List.append_nil] at hop
    obtain rfl := List.eq_of_mem_replicate hop
    exact norm_ez
  · simp only [List.replicate, List.cons_append, List.nil_append, TetraMesh.run, TetraMesh.step, TetraMesh.rotate, hM]
    exact ⟨_, rfl⟩
  · intro p _
    simp only [List.replicate, onPoint, List.foldl_cons, List.foldl_nil, MeshOp.onPoint, shifts, MeshOp.shift, List.map_cons, List.map_nil,
      List.sum_cons, List.sum_nil, Spec.rotate, Real.cos_pi_div_two, Real.sin_pi_div_two]
    ext <;> simp [cross, V3.dot]

end XRD
