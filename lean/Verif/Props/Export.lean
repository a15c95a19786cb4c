import Verif.Model.Export
import Verif.Props.Persist
import Verif.Props.Misorientation

/-! Properties C84 and C85: the visualisation file of a sample, and saving a mesh with element data. -/

namespace XRD.Spec
open XRD V3 M3
/-- one matrix per element, as given to the constructor: the same for all, or a list -/
def perElement (arg : MatArg) (n : ℕ) : List M3 :=
  match arg with
  | .one m => List.replicate n m
  | .many ms => ms
  | .other => []
/-- the file shows the numbers `vals`, one per element, under the name `name` (and under this name nothing else) -/
def Shows (v : Visual) (name : String) (vals : List ℝ) : Prop := ∀ d, (name, d) ∈ v.data ↔ d = .list [PyData.nums vals]
/-- the value is a sequence of `n` items -/
def IsSeq (n : ℕ) (d : PyData) : Prop := ∃ l : List PyData, d = .list l ∧ l.length = n
/-- the value is a sequence -/
def IsAnySeq (d : PyData) : Prop := ∃ n, IsSeq n d
/-- the value put into a list -/
def inList : PyData → PyData := fun d => .list [d]
end XRD.Spec

namespace XRD
open V3 M3 Spec
open scoped Classical

theorem wrapData_ok {data : ElementData} (h : ∀ kv ∈ data, IsAnySeq kv.2) : wrapData data = (data.map fun kv => (kv.1, inList kv.2), none) := by
  induction data with
  | nil => rfl
  | cons kv data ih =>
    obtain ⟨k, v⟩ := kv
    obtain ⟨n, l, hl, -⟩ := h (k, v) List.mem_cons_self
    dsimp only at hl
    subst hl
    have := ih fun kv hkv => h kv (List.mem_cons_of_mem _ hkv)
    unfold wrapData
    simp only [PyData.asList, this, List.map_cons, inList]

theorem seq_nums (l : List ℝ) : IsSeq l.length (PyData.nums l) := ⟨_, rfl, List.length_map _⟩

theorem blockOk_inList {n : ℕ} {d : PyData} (h : IsSeq n d) : blockOk n (inList d) := by
  obtain ⟨l, rfl, hl⟩ := h
  exact ⟨l, rfl, hl⟩

theorem seq_of_blockOk {n : ℕ} {d : PyData} (h : blockOk n (inList d)) : IsSeq n d := by
  obtain ⟨l, e, hl⟩ := h
  simp only [inList, PyData.list.injEq, List.cons.injEq, and_true] at e
  exact ⟨l, e, hl⟩

/-- C85 (partial): saving a mesh with element data that has one entry per element writes exactly the nodes, the elements and that data.
Missing: that the caller's dictionary is left alone; false, see `C85_dictionary_fails`. -/
theorem C85_writes_data_partial (mesh : TetraMesh) (data : ElementData) (h : ∀ kv ∈ data, IsSeq mesh.enod.length kv.2) :
    ∃ v, (mesh.saveData data).2 = .ok v ∧ v.coord = mesh.coord ∧ v.enod = mesh.enod ∧
      v.data = data.map fun kv => (kv.1, inList kv.2) := by
  have hw := wrapData_ok fun kv hkv => (⟨_, h kv hkv⟩ : IsAnySeq kv.2)
  unfold TetraMesh.saveData
  rw [hw]
  dsimp only
  rw [if_pos]
  · exact ⟨_, rfl, rfl, rfl, rfl⟩
  · intro kv hkv
    obtain ⟨kv, hkv', rfl⟩ := List.mem_map.mp hkv
    exact blockOk_inList (h kv hkv')

/-- C85: an entry with another number of values than the mesh has elements is refused (`ValueError`), whatever else is in the data. -/
theorem C85_wrong_length_refused (mesh : TetraMesh) (data : ElementData) (h : ∀ kv ∈ data, IsAnySeq kv.2)
    (hbad : ∃ kv ∈ data, ¬ IsSeq mesh.enod.length kv.2) : (mesh.saveData data).2 = .error .valueError := by
  unfold TetraMesh.saveData
  rw [wrapData_ok h]
  dsimp only
  rw [if_neg]
  intro hall
  obtain ⟨kv, hkv, hn⟩ := hbad
  exact hn (seq_of_blockOk (hall _ (List.mem_map_of_mem hkv)))

/-- C85, limit: saving changes the dictionary it is given, putting every value into a list; so saving the same data twice fails: for
every mesh that does not have exactly one element, and every nonempty data that can be saved, the second identical call raises. -/
theorem C85_dictionary_fails (mesh : TetraMesh) (hn : mesh.enod.length ≠ 1) (data : ElementData) (hne : data ≠ [])
    (h : ∀ kv ∈ data, IsSeq mesh.enod.length kv.2) :
    (∃ v, (mesh.saveData data).2 = .ok v) ∧ (mesh.saveData data).1 = (data.map fun kv => (kv.1, inList kv.2)) ∧
      (mesh.saveData data).1 ≠ data ∧ (mesh.saveData (mesh.saveData data).1).2 = .error .valueError := by
  obtain ⟨v, hv, -⟩ := C85_writes_data_partial mesh data h
  have hw := wrapData_ok fun kv hkv => (⟨_, h kv hkv⟩ : IsAnySeq kv.2)
  have e1 : (mesh.saveData data).1 = data.map fun kv => (kv.1, inList kv.2) := by
    unfold TetraMesh.saveData
    rw [hw]
    dsimp only
    split_ifs <;> rfl
  have hsec : (mesh.saveData (mesh.saveData data).1).2 = .error .valueError := by
    rw [e1]
    refine C85_wrong_length_refused mesh _ ?_ ?_
    · intro kv hkv
      obtain ⟨kv, -, rfl⟩ := List.mem_map.mp hkv
      exact ⟨1, _, rfl, rfl⟩
    · obtain ⟨kv, rest, rfl⟩ := List.exists_cons_of_ne_nil hne
      refine ⟨(kv.1, inList kv.2), by simp, ?_⟩
      rintro ⟨l, hl, hlen⟩
      simp only [inList, PyData.list.injEq] at hl
      subst hl
      exact hn hlen.symm
  refine ⟨⟨v, hv⟩, e1, ?_, hsec⟩
  intro e
  rw [e, hv] at hsec
  cases hsec

/-- C85, limit: if some value is not a sequence the call raises `TypeError`, but the values before it have already been changed. -/
theorem C85_interrupted_fails (mesh : TetraMesh) (before after : ElementData) (k : String) (x : ℝ) (h : ∀ kv ∈ before, IsAnySeq kv.2) :
    mesh.saveData (before ++ (k, .num x) :: after) =
      ((before.map fun kv => (kv.1, inList kv.2)) ++ (k, .num x) :: after, .error .typeError) := by
  have key : wrapData (before ++ (k, .num x) :: after) = ((before.map fun kv => (kv.1, inList kv.2)) ++ (k, .num x) :: after, some .typeError) := by
    induction before with
    | nil => rfl
    | cons kv before ih =>
      obtain ⟨k', v⟩ := kv
      obtain ⟨n, l, hl, -⟩ := h (k', v) List.mem_cons_self
      dsimp only at hl
      subst hl
      have := ih fun kv hkv => h kv (List.mem_cons_of_mem _ hkv)
      rw [List.cons_append]
      unfold wrapData
      simp only [PyData.asList, this, List.map_cons, inList, List.cons_append]
  unfold TetraMesh.saveData
  rw [key]

/-- non-vacuity: two elements with one number each -/
example (mesh : TetraMesh) (h2 : mesh.enod.length = 2) :
    ([("phase", PyData.nums [0, 1])] : ElementData) ≠ [] ∧ ∀ kv ∈ ([("phase", PyData.nums [0, 1])] : ElementData), IsSeq mesh.enod.length kv.2 := by
  refine ⟨by simp, ?_⟩
  intro kv hkv
  obtain rfl := List.mem_singleton.mp hkv
  rw [h2]
  exact seq_nums [0, 1]

/-! ### the visualisation file of a polycrystal -/

theorem perElement_eq {arg : MatArg} {n : ℕ} {l : List M3} (h : instantiateMat arg n = .ok l) : l = perElement arg n ∧ l.length = n := by
  unfold instantiateMat at h
  cases arg with
  | one m => obtain rfl := Except.ok.inj h; exact ⟨rfl, List.length_replicate⟩
  | many ms =>
    dsimp only at h
    split_ifs at h with hl
    obtain rfl := Except.ok.inj h
    exact ⟨rfl, hl⟩
  | other => cases h

theorem elementData_seq (lib : RotLib) (p : Polycrystal) {n : ℕ} (hs : p.strainSample.length = n) (hu : p.orientationSample.length = n)
    (kv : String × PyData) (hkv : kv ∈ p.elementData lib) : IsSeq n kv.2 ∨ kv = ("Material Phase Index", PyData.nums p.phaseMap) := by
  have hm : (misorientations lib p.orientationSample).length = n := by unfold misorientations; rw [List.length_map, hu]
  have hz : ∀ f : M3 × ℝ → ℝ, IsSeq n (PyData.nums ((p.orientationSample.zip (misorientations lib p.orientationSample)).map f)) := by
    intro f
    have := seq_nums ((p.orientationSample.zip (misorientations lib p.orientationSample)).map f)
    rwa [List.length_map, List.length_zip, hu, hm, min_self] at this
  have hst : ∀ f : M3 → ℝ, IsSeq n (PyData.nums (p.strainSample.map f)) := by
    intro f
    have := seq_nums (p.strainSample.map f)
    rwa [List.length_map, hs] at this
  unfold Polycrystal.elementData at hkv
  simp only [List.mem_cons, List.not_mem_nil, or_false] at hkv
  rcases hkv with rfl | rfl | rfl | rfl | rfl | rfl | rfl | rfl | rfl | rfl | rfl
  iterate 6 exact Or.inl (hst _)
  iterate 4 exact Or.inl (hz _)
  exact Or.inr rfl

theorem transforms_sample (p : Polycrystal) (moves : List (Motion × ℝ)) (lib : RotLib) :
    (moves.foldl (fun c mt => c.transform mt.1 mt.2) p).meshSample = p.meshSample ∧
    (moves.foldl (fun c mt => c.transform mt.1 mt.2) p).elementData lib = p.elementData lib := by
  induction moves generalizing p with
  | nil => exact ⟨rfl, rfl⟩
  | cons mt moves ih => exact ih (p.transform mt.1 mt.2)

/-- the phase indices of the elements: those given, or 0 for all -/
noncomputable def Spec.phaseIndices (map : Option (List ℝ)) (n : ℕ) : List ℝ := map.getD (List.replicate n 0)
/-- the number of phase indices a constructor call leads to -/
noncomputable def Spec.mapLength (map : Option (List ℝ)) (n : ℕ) : ℕ := (phaseIndices map n).length

/-- C84: the visualisation file of a polycrystal, after any history of transformations, shows the sample as it was constructed: the nodes
and elements of the given mesh, and per element the six components of the given strain, the Euler angles of the given orientation, the
misorientation and the given phase index; provided there is one phase index per element. -/
theorem C84_shows_sample (lib : RotLib) (x : Xfab) (mesh : TetraMesh) (o s : MatArg) (ph : PhasesArg) (map : Option (List ℝ)) (p : Polycrystal)
    (hp : Polycrystal.new x mesh o s ph map = .ok p) (hmap : mapLength map mesh.enod.length = mesh.enod.length) (moves : List (Motion × ℝ)) :
    let U := perElement o mesh.enod.length
    let S := perElement s mesh.enod.length
    ∃ v, (moves.foldl (fun c mt => c.transform mt.1 mt.2) p).visual lib = .ok v ∧ v.coord = mesh.coord ∧ v.enod = mesh.enod ∧
      Shows v "Strain Tensor Component xx" (S.map fun e => e.r0.x) ∧ Shows v "Strain Tensor Component yy" (S.map fun e => e.r1.y) ∧
      Shows v "Strain Tensor Component zz" (S.map fun e => e.r2.z) ∧ Shows v "Strain Tensor Component xy" (S.map fun e => e.r0.y) ∧
      Shows v "Strain Tensor Component xz" (S.map fun e => e.r0.z) ∧ Shows v "Strain Tensor Component yz" (S.map fun e => e.r1.z) ∧
      Shows v "Bunge Euler Angle phi_1 [degrees]" (U.map fun u => (lib.euler u).1 * 180 / Real.pi) ∧
      Shows v "Bunge Euler Angle Phi [degrees]" (U.map fun u => (lib.euler u).2.1 * 180 / Real.pi) ∧
      Shows v "Bunge Euler Angle phi_2 [degrees]" (U.map fun u => (lib.euler u).2.2 * 180 / Real.pi) ∧
      Shows v "Misorientation from mean orientation [degrees]" ((misorientations lib U).map fun a => a * 180 / Real.pi) ∧
      Shows v "Material Phase Index" (phaseIndices map mesh.enod.length) := by
  intro U S
  obtain ⟨U', S', kind, pm, eB, hU, hS, hph, -, hpe⟩ := Polycrystal.new_ok hp
  obtain ⟨rfl, hUl⟩ := perElement_eq hU
  obtain ⟨rfl, hSl⟩ := perElement_eq hS
  have hms : p.meshSample = mesh := by rw [hpe]
  have hos : p.orientationSample = U := by rw [hpe]
  have hss : p.strainSample = S := by rw [hpe]
  have hpp : p.phaseMap = pm := by rw [hpe]
  clear hpe
  obtain ⟨e1, e2⟩ := transforms_sample p moves lib
  have hpm : pm = (phaseIndices map mesh.enod.length) := by
    unfold instantiatePhase at hph
    cases map with
    | none =>
      dsimp only at hph
      split_ifs at hph
      exact (congrArg Prod.snd (Except.ok.inj hph)).symm
    | some l => exact (congrArg Prod.snd (Except.ok.inj hph)).symm
  have hpl : pm.length = mesh.enod.length := by
    rw [hpm]
    exact hmap
  unfold Polycrystal.visual
  rw [e1, e2, hms]
  obtain ⟨v, hv, h1, h2, h3⟩ := C85_writes_data_partial mesh _ fun kv hkv =>
    (elementData_seq lib p (hss ▸ hSl) (hos ▸ hUl) kv hkv).elim id (by
      rintro rfl
      have := seq_nums p.phaseMap
      rw [hpp, hpl] at this
      rw [hpp]
      exact this)
  refine ⟨v, hv, h1, h2, ?_⟩
  have zip1 : ∀ f : M3 → ℝ, ((U.zip (misorientations lib U)).map fun um => f um.1) = U.map f := by
    intro f
    have : (U.zip (misorientations lib U)).map Prod.fst = U := List.map_fst_zip (by unfold misorientations; rw [List.length_map])
    conv_rhs => rw [← this, List.map_map]
    rfl
  have zip2 : ∀ f : ℝ → ℝ, ((U.zip (misorientations lib U)).map fun um => f um.2) = (misorientations lib U).map f := by
    intro f
    have : (U.zip (misorientations lib U)).map Prod.snd = misorientations lib U := List.map_snd_zip (by unfold misorientations; rw [List.length_map])
    conv_rhs => rw [← this, List.map_map]
    rfl
  have key : ∀ name d, (name, d) ∈ v.data ↔ ∃ d0, (name, d0) ∈ p.elementData lib ∧ d = inList d0 := by
    intro name d
    rw [h3]
    constructor
    · intro h
      obtain ⟨⟨k, d0⟩, hm, e⟩ := List.mem_map.mp h
      simp only [Prod.mk.injEq] at e
      exact ⟨d0, e.1 ▸ hm, e.2.symm⟩
    · rintro ⟨d0, hm, rfl⟩
      exact List.mem_map.mpr ⟨(name, d0), hm, rfl⟩
  unfold Shows
  simp only [key]
  unfold Polycrystal.elementData
  dsimp only
  have z1 := zip1 fun u => degrees (lib.euler u).1
  have z2 := zip1 fun u => degrees (lib.euler u).2.1
  have z3 := zip1 fun u => degrees (lib.euler u).2.2
  have z4 := zip2 degrees
  rw [← hpm, hos, hss, hpp, z1, z2, z3, z4]
  rw [show degrees = fun a => a * 180 / Real.pi from rfl]
  refine ⟨?_, ?_, ?_, ?_, ?_, ?_, ?_, ?_, ?_, ?_, ?_⟩ <;> intro d <;>
    simp [inList]

/-- C84: the visualisation is refused (with a `ValueError`, and no other error) exactly when the phase map given to the constructor has
another length than the mesh has elements. -/
theorem C84_refused_iff (lib : RotLib) (x : Xfab) (mesh : TetraMesh) (o s : MatArg) (ph : PhasesArg) (map : Option (List ℝ)) (p : Polycrystal)
    (hp : Polycrystal.new x mesh o s ph map = .ok p) (moves : List (Motion × ℝ)) (e : PyErr) :
    (moves.foldl (fun c mt => c.transform mt.1 mt.2) p).visual lib = .error e ↔
      e = .valueError ∧ mapLength map mesh.enod.length ≠ mesh.enod.length := by
  by_cases hmap : mapLength map mesh.enod.length = mesh.enod.length
  · obtain ⟨v, hv, -⟩ := C84_shows_sample lib x mesh o s ph map p hp hmap moves
    rw [hv]
    simp [hmap]
  · obtain ⟨U', S', kind, pm, eB, hU, hS, hph, -, hpe⟩ := Polycrystal.new_ok hp
    obtain ⟨rfl, hUl⟩ := perElement_eq hU
    obtain ⟨rfl, hSl⟩ := perElement_eq hS
    have hms : p.meshSample = mesh := by rw [hpe]
    have hpp : p.phaseMap = pm := by rw [hpe]
    have hos : p.orientationSample = perElement o mesh.enod.length := by rw [hpe]
    have hss : p.strainSample = perElement s mesh.enod.length := by rw [hpe]
    have hpl : pm.length ≠ mesh.enod.length := by
      unfold instantiatePhase at hph
      cases map with
      | none => exact absurd List.length_replicate hmap
      | some l =>
        have := (congrArg Prod.snd (Except.ok.inj hph)).symm
        dsimp only at this
        rw [this]
        exact hmap
    obtain ⟨e1, e2⟩ := transforms_sample p moves lib
    have hv : (moves.foldl (fun c mt => c.transform mt.1 mt.2) p).visual lib = .error .valueError := by
      unfold Polycrystal.visual
      rw [e1, e2, hms]
      refine C85_wrong_length_refused mesh _ ?_ ?_
      · intro kv hkv
        rcases elementData_seq lib p (hss ▸ hSl) (hos ▸ hUl) kv hkv with h | rfl
        · exact ⟨_, h⟩
        · exact ⟨_, seq_nums _⟩
      · refine ⟨("Material Phase Index", PyData.nums p.phaseMap), ?_, ?_⟩
        · unfold Polycrystal.elementData
          simp
        · rintro ⟨l, hl, hlen⟩
          simp only [PyData.nums, PyData.list.injEq] at hl
          rw [← hl, List.length_map, hpp] at hlen
          exact hpl hlen
    rw [hv]
    constructor
    · intro h
      exact ⟨(Except.error.inj h).symm, hmap⟩
    · rintro ⟨rfl, -⟩
      rfl

theorem saveChecked_fst (io : MeshIO) (lib : RotLib) (p : Polycrystal) (path : Path) (vis : Bool) (fs : FS) :
    (p.saveChecked io lib path vis fs).1 = p.save io path (vis && ((p.saveChecked io lib path vis fs).2 = none)) fs ∧
    ((p.saveChecked io lib path vis fs).2 ≠ none → vis = true ∧ ∃ e, (p.saveChecked io lib path vis fs).2 = some e ∧ p.visual lib = .error e) := by
  unfold Polycrystal.saveChecked Polycrystal.save
  cases vis with
  | false => simp
  | true =>
    cases hv : p.visual lib <;> simp

/-- C84: a save whose visualisation is refused raises `ValueError`, but its `.pc` file is complete: it loads back as the object that was
saved (its phase map as a tensor), and no other file has changed. -/
theorem C84_interrupted_save (io : MeshIO) (lib : RotLib) (x : Xfab) (mesh : TetraMesh) (o s : MatArg) (ph : PhasesArg)
    (map : Option (List ℝ)) (p : Polycrystal) (hp : Polycrystal.new x mesh o s ph map = .ok p) (moves : List (Motion × ℝ)) (path : Path)
    (fs : FS) (e : PyErr) (he : ((moves.foldl (fun c mt => c.transform mt.1 mt.2) p).saveChecked io lib path true fs).2 = some e) :
    let c := moves.foldl (fun c mt => c.transform mt.1 mt.2) p
    e = .valueError ∧ Polycrystal.load (Spec.fileFor ".pc" path) (c.saveChecked io lib path true fs).1 = .ok { c with mapKind := .torch } ∧
      ∀ f, f ≠ Spec.fileFor ".pc" path → (c.saveChecked io lib path true fs).1 f = fs f := by
  intro c
  have h1 := saveChecked_fst io lib c path true fs
  obtain ⟨-, e', he', hv⟩ := h1.2 (by rw [he]; simp)
  rw [he] at he'
  obtain rfl := Option.some.inj he'
  have hf := h1.1
  rw [he] at hf
  have hf' : (c.saveChecked io lib path true fs).1 = fs.write (Spec.fileFor ".pc" path) (.polycrystal c) := by
    rw [hf, ← polySavePaths_fst]
    rfl
  refine ⟨((C84_refused_iff lib x mesh o s ph map p hp moves _).mp hv).1, ?_, ?_⟩
  · unfold Polycrystal.load
    rw [if_neg (not_not.mpr (fileFor_ext _ _)), hf']
    unfold FS.write
    rw [Function.update_self]
  · intro f hfne
    rw [hf']
    exact Function.update_of_ne hfne _ _

/-- C84: a save that raises nothing has written what the saving model of C44 and C45 says, so their guarantees hold for it. -/
theorem C84_completed_save (io : MeshIO) (lib : RotLib) (p : Polycrystal) (path : Path) (vis : Bool) (fs : FS)
    (h : (p.saveChecked io lib path vis fs).2 = none) : (p.saveChecked io lib path vis fs).1 = p.save io path vis fs := by
  rw [(saveChecked_fst io lib p path vis fs).1, h]
  simp

/-- C84: the length of the phase map is not checked by the constructor: a polycrystal of one element with two phase indices is
built, and then cannot be saved with its visualisation. -/
theorem C84_unchecked_map (io : MeshIO) (lib : RotLib) (path : Path) (fs : FS) :
    ∃ p, Polycrystal.new sceneX sceneMesh (.one 1) (.one 0) (.one scenePhase) (some [0, 7]) = .ok p ∧
      (p.saveChecked io lib path true fs).2 = some .valueError := by
  have hg : grainIndices [0, 7] 0 = [0] := by simp [grainIndices, List.range_succ]
  have hg0 : grainIndices [0] 0 = [0] := by simp [grainIndices, List.range_succ]
  obtain ⟨U, S, kind, pm, eB, hU, hS, hph, heB, -⟩ := Polycrystal.new_ok scenePoly_new
  have e1 : pm = [0] := by
    unfold instantiatePhase at hph
    have := Except.ok.inj hph; simp only [Prod.mk.injEq] at this; exact this.2.symm
  subst e1
  have hn : sceneMesh.enod.length = 1 := rfl
  have heB' : instantiateEB sceneX sceneMesh.enod.length U S [scenePhase] [0, 7] = .ok eB := by
    rw [← heB]
    unfold instantiateEB PhasesArg.toList
    rw [if_neg, if_neg]
    · unfold eBLoop eBStep
      dsimp only
      rw [hg, hg0]
      rfl
    all_goals
      rintro ⟨i, hi, k, hk, hle⟩
      simp only [List.length_singleton, Nat.lt_one_iff] at hi
      subst hi
      first | rw [hg] at hk | rw [hg0] at hk
      simp at hk
      omega
  have hnew : ∃ p, Polycrystal.new sceneX sceneMesh (.one 1) (.one 0) (.one scenePhase) (some [0, 7]) = .ok p := by
    unfold Polycrystal.new
    dsimp only
    rw [hU, hS]
    dsimp only [instantiatePhase, PhasesArg.toList]
    rw [heB']
    exact ⟨_, rfl⟩
  obtain ⟨p, hp⟩ := hnew
  refine ⟨p, hp, ?_⟩
  have hv := (C84_refused_iff lib sceneX sceneMesh (.one 1) (.one 0) (.one scenePhase) (some [0, 7]) p hp [] .valueError).mpr
    ⟨rfl, by simp [mapLength, phaseIndices, hn]⟩
  unfold Polycrystal.saveChecked
  simp only [List.foldl_nil] at hv
  simp only [hv, if_true]

/-- non-vacuity of `C84_shows_sample`: a constructed polycrystal whose phase map fits, and its visualisation after a turn -/
example (lib : RotLib) : ∃ v, ([(demoZ, (1 / 2 : ℝ))].foldl (fun c mt => c.transform mt.1 mt.2) scenePoly).visual lib = .ok v ∧
    v.coord = sceneMesh.coord ∧ Shows v "Material Phase Index" [0] := by
  have h := C84_shows_sample lib sceneX sceneMesh (.one 1) (.one 0) (.one scenePhase) (some [0]) scenePoly scenePoly_new rfl [(demoZ, 1 / 2)]
  obtain ⟨v, hv, h1, -, -, -, -, -, -, -, -, -, -, -, h2⟩ := h
  exact ⟨v, hv, h1, h2⟩

end XRD
