import Verif.Props.Mesh

/-! Property C11: derived mesh geometry over histories of mesh operations. -/

namespace XRD.Spec
open XRD V3
/-- One user operation on a mesh: `translate`, `update` with a motion, or `rotate`. -/
inductive MeshOp where
  | translate (v : V3)
  | update (motion : Motion) (time : ℝ)
  | rotate (axis : V3) (angle : ℝ)
/-- What the operation is documented to do to a point of space. -/
noncomputable def MeshOp.onPoint : MeshOp → V3 → V3
  | .translate v, p => p + v
  | .update b t, p => move b.axis b.angle b.translation b.origin t p
  | .rotate a w, p => Spec.rotate a w p
/-- The operation uses an exactly unit rotation axis. -/
def MeshOp.UnitAxis : MeshOp → Prop
  | .translate _ => True
  | .update b _ => norm b.axis = 1
  | .rotate a _ => norm a = 1
/-- What a history of operations is documented to do to a point. -/
noncomputable def onPoint (h : List MeshOp) (p : V3) : V3 := h.foldl (fun q op => op.onPoint q) p
end XRD.Spec

namespace XRD
open V3 M3

/-- run one operation -/
noncomputable def TetraMesh.step (m : TetraMesh) : Spec.MeshOp → Except PyErr TetraMesh
  | .translate v => .ok (m.translate v)
  | .update b t => .ok (m.update b t)
  | .rotate a w => m.rotate a w
/-- run a history of operations -/
noncomputable def TetraMesh.run (m : TetraMesh) : List Spec.MeshOp → Except PyErr TetraMesh
  | [] => .ok m
  | op :: h => match m.step op with
    | .error e => .error e
    | .ok m' => m'.run h

theorem elements_map {f : V3 → V3} {coord : List V3} {enod : List (Q4 ℕ)}
    (hin : ∀ e ∈ enod, ∀ i ∈ e.toList, i < coord.length) :
    elements (coord.map f) enod = (elements coord enod).map (Q4.map f) := by
  unfold elements
  rw [List.map_map]
  apply List.map_congr_left
  intro e he
  have := hin e he
  simp only [Q4.toList, List.mem_cons, List.not_mem_nil, or_false, forall_eq_or_imp, forall_eq] at this
  obtain ⟨h0, h1, h2, h3⟩ := this
  simp [Q4.map, h0, h1, h2, h3]

/-- The rigid map behind one operation. -/
theorem MeshOp.affRot {op : Spec.MeshOp} (h : op.UnitAxis) : ∃ R, AffRot op.onPoint R := by
  cases op with
  | translate v => exact ⟨_, translate_affRot v⟩
  | update b t =>
    have h' : norm b.axis = 1 := h
    refine ⟨rotMat b.axis (b.angle * t), ?_⟩
    convert call1_affRot b h' t using 1
    funext p
    simp only [Spec.MeshOp.onPoint, Spec.move, Motion.call1, rotMat_eq_spec (norm_eq_one.mp h'), mul_comm b.angle t]
    ext <;> simp <;> ring
  | rotate a w =>
    have h' : norm a = 1 := h
    refine ⟨rotMat a w, rotMat_isRot (norm_eq_one.mp h') _, 0, fun p => ?_⟩
    simp only [Spec.MeshOp.onPoint, rotMat_eq_spec (norm_eq_one.mp h')]
    ext <;> simp

theorem call1_eq_onPoint {b : Motion} (h : norm b.axis = 1) (t : ℝ) :
    (fun p => b.call1 p t) = (Spec.MeshOp.update b t).onPoint := by
  funext p
  simp only [Spec.MeshOp.onPoint, Spec.move, Motion.call1, rotMat_eq_spec (norm_eq_one.mp h), mul_comm b.angle t]
  ext <;> simp <;> ring

/-- The derived quantities of `m` are those of the node positions `X`. -/
structure DerivedOf (m : TetraMesh) (X : List V3) : Prop where
  enormals : m.enormals = (TetraMesh.ofData X m.enod).enormals
  ecentroids : m.ecentroids = (TetraMesh.ofData X m.enod).ecentroids
  eradius : m.eradius = (TetraMesh.ofData X m.enod).eradius
  espherecentroids : m.espherecentroids = (TetraMesh.ofData X m.enod).espherecentroids
  evolumes : m.evolumes = (TetraMesh.ofData X m.enod).evolumes
  centroid : m.centroid = (TetraMesh.ofData X m.enod).centroid

/-- All element vertices exist and no element is flat. -/
structure GoodData (X : List V3) (enod : List (Q4 ℕ)) : Prop where
  nonempty : enod ≠ []
  inRange : ∀ e ∈ enod, ∀ i ∈ e.toList, i < X.length
  solid : ∀ t ∈ elements X enod, signedVolume t ≠ 0

theorem GoodData.map {X : List V3} {enod : List (Q4 ℕ)} (h : GoodData X enod) {f : V3 → V3} {R : M3} (hf : AffRot f R) :
    GoodData (X.map f) enod := by
  refine ⟨h.nonempty, fun e he i hi => by rw [List.length_map]; exact h.inRange e he i hi, ?_⟩
  rw [elements_map h.inRange]
  intro t ht
  obtain ⟨s, hs, rfl⟩ := List.mem_map.mp ht
  rw [signedVolume_map hf]; exact h.solid s hs

theorem DerivedOf.map {m : TetraMesh} {X : List V3} (hg : GoodData X m.enod) (hd : DerivedOf m X)
    {f : V3 → V3} {R : M3} (hf : AffRot f R) (m' : TetraMesh) (hen : m'.enod = m.enod)
    (h1 : m'.enormals = m.enormals.map (Q4.map R.mulVec)) (h2 : m'.ecentroids = m.ecentroids.map f)
    (h3 : m'.eradius = m.eradius) (h4 : m'.espherecentroids = m.espherecentroids.map f)
    (h5 : m'.evolumes = m.evolumes) (h6 : m'.centroid = f m.centroid) : DerivedOf m' (X.map f) := by
  have he := elements_map (f := f) hg.inRange
  have hne : elements X m.enod ≠ [] := by
    intro h; apply hg.nonempty; simpa [elements] using h
  constructor
  · rw [h1, hd.enormals, hen]
    simp only [TetraMesh.ofData, he, List.map_map]
    apply List.map_congr_left
    intro t _; simp only [Function.comp, normalsOf_map hf]
  · rw [h2, hd.ecentroids, hen]
    simp only [TetraMesh.ofData, he, List.map_map]
    apply List.map_congr_left
    intro t _; simp only [Function.comp, hf.mean4]
  · rw [h3, hd.eradius, hen]
    simp only [TetraMesh.ofData, he, List.map_map]
    apply List.map_congr_left
    intro t ht; simp only [Function.comp, sphereOf_map hf (hg.solid t ht)]
  · rw [h4, hd.espherecentroids, hen]
    simp only [TetraMesh.ofData, he, List.map_map]
    apply List.map_congr_left
    intro t ht; simp only [Function.comp, sphereOf_map hf (hg.solid t ht)]
  · rw [h5, hd.evolumes, hen]
    simp only [TetraMesh.ofData, he, List.map_map]
    apply List.map_congr_left
    intro t ht; simp only [Function.comp, signedVolume_map hf]
  · rw [h6, hd.centroid, hen]
    simp only [TetraMesh.ofData, he, List.map_map]
    rw [hf.meanV (by simpa using hne), List.map_map]
    congr 1
    apply List.map_congr_left
    intro t _; simp only [Function.comp, hf.mean4]

theorem Q4.map_id' (q : Q4 V3) : Q4.map (M3.mulVec 1) q = q := by
  simp [Q4.map, one_mulVec]

/-- One step keeps the derived quantities in line with the documented positions. -/
theorem step_derived {m m' : TetraMesh} {X : List V3} (hg : GoodData X m.enod) (hd : DerivedOf m X)
    {op : Spec.MeshOp} (hu : op.UnitAxis) (hs : m.step op = .ok m') :
    m'.enod = m.enod ∧ DerivedOf m' (X.map op.onPoint) := by
  cases op with
  | translate v =>
    obtain rfl := Except.ok.inj hs
    refine ⟨rfl, hd.map hg (translate_affRot v) _ rfl ?_ rfl rfl rfl rfl rfl⟩
    have : (Q4.map (M3.mulVec 1) : Q4 V3 → Q4 V3) = id := funext Q4.map_id'
    rw [this, List.map_id]; rfl
  | update b t =>
    obtain rfl := Except.ok.inj hs
    have hu' : norm b.axis = 1 := hu
    rw [← call1_eq_onPoint hu' t]
    exact ⟨rfl, hd.map hg (call1_affRot b hu' t) _ rfl rfl rfl rfl rfl rfl rfl⟩
  | rotate a w =>
    have hu' : norm a = 1 := hu
    simp only [TetraMesh.step, TetraMesh.rotate] at hs
    split at hs
    · cases hs
    · rename_i b hb
      obtain rfl := Except.ok.inj hs
      obtain ⟨rfl, -, -, -⟩ := Motion.new_ok hb
      have e : (Spec.MeshOp.rotate a w).onPoint = fun p => (⟨a, w, 0, 0⟩ : Motion).call1 p 1 := by
        funext p
        simp only [Spec.MeshOp.onPoint, Motion.call1, rotMat_eq_spec (norm_eq_one.mp hu'), mul_one]
        have : p - (0 : V3) = p := by ext <;> simp
        rw [this]; ext <;> simp
      rw [e]
      exact ⟨rfl, hd.map hg (call1_affRot ⟨a, w, 0, 0⟩ hu' 1) _ rfl rfl rfl rfl rfl rfl rfl⟩

theorem run_derived {m m' : TetraMesh} {X : List V3} (hg : GoodData X m.enod) (hd : DerivedOf m X)
    (h : List Spec.MeshOp) (hu : ∀ op ∈ h, op.UnitAxis) (hs : m.run h = .ok m') :
    m'.enod = m.enod ∧ DerivedOf m' (X.map (Spec.onPoint h)) ∧ GoodData (X.map (Spec.onPoint h)) m'.enod := by
  induction h generalizing m X with
  | nil =>
    obtain rfl := Except.ok.inj hs
    have : Spec.onPoint [] = id := rfl
    rw [this, List.map_id]
    exact ⟨rfl, hd, hg⟩
  | cons op h ih =>
    simp only [TetraMesh.run] at hs
    split at hs
    · cases hs
    · rename_i m1 h1
      obtain ⟨e1, hd1⟩ := step_derived hg hd (hu op (by simp)) h1
      obtain ⟨R, hR⟩ := MeshOp.affRot (hu op (by simp))
      have hg1 : GoodData (X.map op.onPoint) m1.enod := by rw [e1]; exact hg.map hR
      obtain ⟨e2, hd2, hg2⟩ := ih hg1 hd1 (fun o ho => hu o (by simp [ho])) hs
      rw [List.map_map] at hd2 hg2
      exact ⟨e2.trans e1, hd2, hg2⟩

theorem ofData_derived (coord : List V3) (enod : List (Q4 ℕ)) : DerivedOf (TetraMesh.ofData coord enod) coord :=
  ⟨rfl, rfl, rfl, rfl, rfl, rfl⟩

/-- C11: after any history of `translate`, `update` and `rotate` calls with unit axes, normals, centroids, bounding spheres
and volumes are those of a mesh freshly built from the documented node positions (every node moved by every
operation). -/
theorem C11_derived_geometry_follows_documented_positions (coord : List V3) (enod : List (Q4 ℕ)) (m m' : TetraMesh)
    (hm : TetraMesh.new coord enod = .ok m) (hne : enod ≠ []) (h : List Spec.MeshOp) (hu : ∀ op ∈ h, op.UnitAxis)
    (hs : m.run h = .ok m') :
    ∃ fresh, TetraMesh.new (coord.map (Spec.onPoint h)) enod = .ok fresh ∧ m'.enormals = fresh.enormals ∧
      m'.ecentroids = fresh.ecentroids ∧ m'.eradius = fresh.eradius ∧ m'.espherecentroids = fresh.espherecentroids ∧
      m'.evolumes = fresh.evolumes ∧ m'.centroid = fresh.centroid := by
  obtain ⟨rfl, hin, hvol⟩ := TetraMesh.new_ok hm
  obtain ⟨e, hd, hg⟩ := run_derived (X := coord) ⟨hne, hin, hvol⟩ (ofData_derived coord enod) h hu hs
  have e' : m'.enod = enod := e
  rw [e'] at hg
  refine ⟨TetraMesh.ofData (coord.map (Spec.onPoint h)) enod, ?_, ?_, ?_, ?_, ?_, ?_, ?_⟩
  · unfold TetraMesh.new; rw [if_pos hg.inRange, if_pos hg.solid]
  · rw [hd.enormals, e']
  · rw [hd.ecentroids, e']
  · rw [hd.eradius, e']
  · rw [hd.espherecentroids, e']
  · rw [hd.evolumes, e']
  · rw [hd.centroid, e']

/-- An operation that moves the mesh by a motion. -/
def Spec.MeshOp.IsMove : Spec.MeshOp → Prop
  | .translate _ => False
  | _ => True

theorem step_coord {m m' : TetraMesh} {op : Spec.MeshOp} (hu : op.UnitAxis) (hs : m.step op = .ok m')
    (hp : op.IsMove ∨ m.points = m.coord) :
    m'.coord = m.coord.map op.onPoint ∧ (¬ op.IsMove → m'.points = m'.coord) := by
  cases op with
  | translate v =>
    obtain rfl := Except.ok.inj hs
    have hp' : m.points = m.coord := by simpa [Spec.MeshOp.IsMove] using hp
    exact ⟨by simp only [TetraMesh.translate, hp']; rfl, fun _ => rfl⟩
  | update b t =>
    obtain rfl := Except.ok.inj hs
    have hu' : norm b.axis = 1 := hu
    rw [← call1_eq_onPoint hu' t]
    exact ⟨rfl, fun h => absurd trivial h⟩
  | rotate a w =>
    have hu' : norm a = 1 := hu
    simp only [TetraMesh.step, TetraMesh.rotate] at hs
    split at hs
    · cases hs
    · rename_i b hb
      obtain rfl := Except.ok.inj hs
      obtain ⟨rfl, -, -, -⟩ := Motion.new_ok hb
      refine ⟨?_, fun h => absurd trivial h⟩
      simp only [TetraMesh.update]
      apply List.map_congr_left
      intro p _
      simp only [Spec.MeshOp.onPoint, Motion.call1, rotMat_eq_spec (norm_eq_one.mp hu'), mul_one]
      have : p - (0 : V3) = p := by ext <;> simp
      rw [this]; ext <;> simp

theorem run_coord {m m' : TetraMesh} (h : List Spec.MeshOp) (hu : ∀ op ∈ h, op.UnitAxis) (hs : m.run h = .ok m')
    (hp : (∀ op ∈ h, op.IsMove) ∨ (m.points = m.coord ∧ ∃ ts ms, h = ts ++ ms ∧ (∀ op ∈ ts, ¬ op.IsMove) ∧ ∀ op ∈ ms, op.IsMove)) :
    m'.coord = m.coord.map (Spec.onPoint h) := by
  induction h generalizing m with
  | nil =>
    obtain rfl := Except.ok.inj hs
    have : Spec.onPoint [] = id := rfl
    rw [this, List.map_id]
  | cons op h ih =>
    simp only [TetraMesh.run] at hs
    split at hs
    · cases hs
    · rename_i m1 h1
      have hop := hu op (by simp)
      have hu' : ∀ o ∈ h, o.UnitAxis := fun o ho => hu o (by simp [ho])
      have fin : ∀ (_ : m1.coord = m.coord.map op.onPoint) (_ : m'.coord = m1.coord.map (Spec.onPoint h)),
          m'.coord = m.coord.map (Spec.onPoint (op :: h)) := by
        intro a b; rw [b, a, List.map_map]; rfl
      rcases hp with hp | ⟨hpc, ts, ms, hsplit, hts, hms⟩
      · obtain ⟨c1, -⟩ := step_coord hop h1 (Or.inl (hp op (by simp)))
        exact fin c1 (ih hu' hs (Or.inl fun o ho => hp o (by simp [ho])))
      · obtain ⟨c1, p1⟩ := step_coord hop h1 (Or.inr hpc)
        cases ts with
        | nil =>
          rw [List.nil_append] at hsplit
          exact fin c1 (ih hu' hs (Or.inl fun o ho => hms o (by rw [← hsplit]; simp [ho])))
        | cons t ts =>
          rw [List.cons_append, List.cons.injEq] at hsplit
          obtain ⟨rfl, rfl⟩ := hsplit
          exact fin c1 (ih hu' hs (Or.inr ⟨p1 (hts _ (by simp)), ts, ms, rfl, fun o ho => hts o (by simp [ho]), hms⟩))

/-- C11 (partial): after any history in which no `translate` follows an `update` or `rotate`, the node coordinates are the
documented ones and the whole mesh equals one freshly built from its current coordinates.  Missing: `translate` after
`update` or `rotate`, for which the claim is false (`C11_mesh_consistency_fails`). -/
theorem C11_mesh_consistency_partial (coord : List V3) (enod : List (Q4 ℕ)) (m m' : TetraMesh)
    (hm : TetraMesh.new coord enod = .ok m) (hne : enod ≠ []) (ts ms : List Spec.MeshOp)
    (hts : ∀ op ∈ ts, ∃ v, op = .translate v)
    (hms : ∀ op ∈ ms, ∀ v, op ≠ .translate v) (hu : ∀ op ∈ ms, op.UnitAxis) (hs : m.run (ts ++ ms) = .ok m') :
    m'.coord = coord.map (Spec.onPoint (ts ++ ms)) ∧
      TetraMesh.new m'.coord m'.enod = .ok { m' with points := m'.coord } := by
  have hm' := hm
  obtain ⟨rfl, hin, hvol⟩ := TetraMesh.new_ok hm
  have hu' : ∀ op ∈ ts ++ ms, op.UnitAxis := by
    intro op hop
    rcases List.mem_append.mp hop with h | h
    · obtain ⟨v, rfl⟩ := hts op h; trivial
    · exact hu op h
  have hc : m'.coord = coord.map (Spec.onPoint (ts ++ ms)) := by
    apply run_coord (m := TetraMesh.ofData coord enod) (ts ++ ms) hu' hs
    refine Or.inr ⟨rfl, ts, ms, rfl, ?_, ?_⟩
    · intro op h; obtain ⟨v, rfl⟩ := hts op h; exact id
    · intro op h
      cases op with
      | translate v => exact absurd rfl (hms _ h v)
      | update b t => trivial
      | rotate a w => trivial
  refine ⟨hc, ?_⟩
  obtain ⟨fresh, hf, h1, h2, h3, h4, h5, h6⟩ :=
    C11_derived_geometry_follows_documented_positions coord enod _ m' hm' hne (ts ++ ms) hu' hs
  obtain ⟨e, -, -⟩ := run_derived (X := coord) ⟨hne, hin, hvol⟩ (ofData_derived coord enod) _ hu' hs
  have e' : m'.enod = enod := e
  rw [hc, e', hf]
  congr 1
  obtain ⟨rfl, -, -⟩ := TetraMesh.new_ok hf
  ext1
  · rfl
  · rfl
  · rfl
  · exact h1.symm
  · exact h2.symm
  · exact h3.symm
  · exact h4.symm
  · exact h5.symm
  · exact h6.symm

/-- C11 is false in general: after `update` and then `translate` the node coordinates are the un-moved ones while the
centroids have moved, so the mesh is not the mesh of its own coordinates. -/
theorem C11_mesh_consistency_fails :
    ∃ (coord : List V3) (enod : List (Q4 ℕ)) (m m' : TetraMesh) (h : List Spec.MeshOp),
      TetraMesh.new coord enod = .ok m ∧ enod ≠ [] ∧ (∀ op ∈ h, op.UnitAxis) ∧ m.run h = .ok m' ∧
      TetraMesh.new m'.coord m'.enod ≠ .ok { m' with points := m'.coord } ∧
      m'.coord ≠ coord.map (Spec.onPoint h) := by
  have hmove : ∀ p : V3, demoMotion.call1 p 1 = ⟨10 - p.y, 3 + p.x, 3 + p.z⟩ := by
    intro p
    rw [C06_motion_is_rotation_then_translation _ _ _ _ _ _ demoMotion_new norm_ez]
    ext <;> simp [demoMotion, Spec.move, Spec.rotate, cross, V3.dot] <;> ring
  refine ⟨demoCoord, demoEnod, demoMesh, (demoMesh.update demoMotion 1).translate 0,
    [.update demoMotion 1, .translate 0], demoMesh_new, by simp [demoEnod], ?_, rfl, ?_, ?_⟩
  · intro op hop
    simp only [List.mem_cons, List.not_mem_nil, or_false] at hop
    rcases hop with rfl | rfl
    · exact norm_ez
    · trivial
  · intro hcon
    obtain ⟨e, -, -⟩ := TetraMesh.new_ok hcon
    have h := congrArg (fun m : TetraMesh => m.ecentroids.getD 0 0) e
    simp [TetraMesh.ofData, TetraMesh.translate, TetraMesh.update, demoMesh, demoEnod, demoCoord, elements, mean4,
      Q4.map, hmove] at h
    have := congrArg V3.x h
    simp at this
    norm_num at this
  · intro hcon
    have h := congrArg (fun l : List V3 => (l.getD 0 0).x) hcon
    have e : (Spec.MeshOp.update demoMotion 1).onPoint = fun p => demoMotion.call1 p 1 := (call1_eq_onPoint norm_ez 1).symm
    simp [TetraMesh.translate, TetraMesh.update, demoMesh, demoCoord, TetraMesh.ofData, Spec.onPoint, e, hmove] at h
    norm_num [Spec.MeshOp.onPoint] at h

example : ∃ m', demoMesh.run ([.translate ⟨1, 2, 3⟩] ++ [.update demoMotion 1]) = .ok m' ∧
    (Spec.MeshOp.update demoMotion 1).UnitAxis := ⟨_, rfl, norm_ez⟩

end XRD
