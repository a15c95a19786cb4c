import Verif.Model.Persist
import Verif.Props.World

/-! C44, C45: saving and loading. -/

namespace XRD
open V3 Fl
open Classical

/-- Specification: the file an object is saved in, "the extension is added if not present" -/
noncomputable def Spec.fileFor (ext : String) (path : Path) : Path := if ext.toList <:+ path then path else path ++ ext.toList

/-- Specification: the object file of a save -/
noncomputable def Spec.target : SaveOp → Path
  | .motion _ path => fileFor ".motion" path
  | .beam _ path => fileFor ".beam" path
  | .detector _ path => fileFor ".det" path
  | .polycrystal _ path _ => fileFor ".pc" path

theorem savePath_eq (ext : String) (path : Path) : savePath ext path = Spec.fileFor ext path := by
  unfold savePath Spec.fileFor; split_ifs <;> rfl
theorem polySavePaths_fst (path : Path) : (polySavePaths path).1 = Spec.fileFor ".pc" path := by
  unfold polySavePaths Spec.fileFor; split_ifs <;> rfl
theorem fileFor_ext (ext : String) (path : Path) : ext.toList <:+ Spec.fileFor ext path := by
  unfold Spec.fileFor; split_ifs with h
  · exact h
  · exact List.suffix_append _ _
theorem fileFor_fileFor (ext : String) (path : Path) : Spec.fileFor ext (Spec.fileFor ext path) = Spec.fileFor ext path := by
  conv_lhs => unfold Spec.fileFor
  rw [if_pos]
  · rfl
  · exact fileFor_ext ext path

/-- a path does not end in two extensions with different last letters -/
theorem ext_ne {a b : List Char} {p : Path} {x y : Char} (ha : (a ++ [x]) <:+ p) (hb : (b ++ [y]) <:+ p) : x = y := by
  obtain ⟨u, rfl⟩ := ha
  obtain ⟨v, h⟩ := hb
  rw [← List.append_assoc, ← List.append_assoc] at h
  have := List.append_inj_right' h rfl
  simpa using this.symm

/-- C44: one save changes the file of the object and, for polycrystals saved with visualisation, the `.xdmf` file and meshio's
`.h5` file; every other file keeps its content. -/
theorem C44_other_files_untouched (io : MeshIO) (fs : FS) (op : SaveOp) (p : Path) (hp : p ≠ Spec.target op)
    (hx : ".xdmf".toList <:+ p ∨ ".h5".toList <:+ p → ∀ c path, op ≠ .polycrystal c path true) :
    op.run io fs p = fs p := by
  cases op with
  | motion m path => exact Function.update_of_ne (by rw [savePath_eq]; exact hp) _ _
  | beam b path => exact Function.update_of_ne (by rw [savePath_eq]; exact hp) _ _
  | detector d path => exact Function.update_of_ne (by rw [savePath_eq]; exact hp) _ _
  | polycrystal c path x =>
    have h1 : (fs.write (polySavePaths path).1 (.polycrystal c)) p = fs p :=
      Function.update_of_ne (by rw [polySavePaths_fst]; exact hp) _ _
    show Polycrystal.save io c path x fs p = fs p
    unfold Polycrystal.save
    cases x with
    | false => exact h1
    | true =>
      have hn : ¬ (".xdmf".toList <:+ p ∨ ".h5".toList <:+ p) := fun h => hx h c path rfl
      push Not at hn
      show ((_ : FS).write _ _).write _ _ p = _
      unfold FS.write
      rw [Function.update_of_ne, Function.update_of_ne]
      · exact h1
      · rintro rfl; exact hn.1 (by rw [savePath_eq]; exact fileFor_ext _ _)
      · rintro rfl; exact hn.2 (io.companion_ext _)

/-- the object file after its save and any later saves of other objects -/
theorem after_saves (io : MeshIO) (fs : FS) (op : SaveOp) (f : File) (later : List SaveOp)
    (hx : ¬ (".xdmf".toList <:+ Spec.target op ∨ ".h5".toList <:+ Spec.target op))
    (hop : op.run io fs (Spec.target op) = some f) (hl : ∀ o ∈ later, Spec.target o ≠ Spec.target op) :
    (later.foldl (SaveOp.run io) (op.run io fs)) (Spec.target op) = some f := by
  generalize op.run io fs = g at hop
  induction later generalizing g with
  | nil => exact hop
  | cons o os ih =>
    refine ih (fun o' h' => hl o' (List.mem_cons_of_mem _ h')) _ ?_
    rw [C44_other_files_untouched io g o _ (hl o List.mem_cons_self).symm (fun h => absurd h hx), hop]

theorem motion_ext {p : Path} (h : ".motion".toList <:+ p) : ¬ (".xdmf".toList <:+ p ∨ ".h5".toList <:+ p) := by
  rintro (h' | h')
  · have := ext_ne (a := ".motio".toList) (b := ".xdm".toList) (x := 'n') (y := 'f') h h'; revert this; decide
  · have := ext_ne (a := ".motio".toList) (b := ".h".toList) (x := 'n') (y := '5') h h'; revert this; decide
theorem beam_ext {p : Path} (h : ".beam".toList <:+ p) : ¬ (".xdmf".toList <:+ p ∨ ".h5".toList <:+ p) := by
  rintro (h' | h')
  · have := ext_ne (a := ".bea".toList) (b := ".xdm".toList) (x := 'm') (y := 'f') h h'; revert this; decide
  · have := ext_ne (a := ".bea".toList) (b := ".h".toList) (x := 'm') (y := '5') h h'; revert this; decide
theorem det_ext {p : Path} (h : ".det".toList <:+ p) : ¬ (".xdmf".toList <:+ p ∨ ".h5".toList <:+ p) := by
  rintro (h' | h')
  · have := ext_ne (a := ".de".toList) (b := ".xdm".toList) (x := 't') (y := 'f') h h'; revert this; decide
  · have := ext_ne (a := ".de".toList) (b := ".h".toList) (x := 't') (y := '5') h h'; revert this; decide
theorem pc_ext {p : Path} (h : ".pc".toList <:+ p) : ¬ (".xdmf".toList <:+ p ∨ ".h5".toList <:+ p) := by
  rintro (h' | h')
  · have := ext_ne (a := ".p".toList) (b := ".xdm".toList) (x := 'c') (y := 'f') h h'; revert this; decide
  · have := ext_ne (a := ".p".toList) (b := ".h".toList) (x := 'c') (y := '5') h h'; revert this; decide

/-- C44: a motion saved to any path loads back equal, whatever was saved before and whatever is saved later to other files. -/
theorem C44_motion (io : MeshIO) (fs : FS) (m : Motion) (path : Path) (later : List SaveOp)
    (hl : ∀ o ∈ later, Spec.target o ≠ Spec.fileFor ".motion" path) :
    Motion.load (Spec.fileFor ".motion" path) (later.foldl (SaveOp.run io) (m.save path fs)) = .ok m := by
  have h := after_saves io fs (.motion m path) (.motion m) later (motion_ext (fileFor_ext _ _))
    (by show (fs.write _ _) (Spec.fileFor ".motion" path) = _; rw [savePath_eq]; exact Function.update_self _ _ _) hl
  have h' : (later.foldl (SaveOp.run io) (m.save path fs)) (Spec.fileFor ".motion" path) = some (.motion m) := h
  unfold Motion.load
  rw [if_neg (not_not.mpr (fileFor_ext _ _)), h']

/-- C44: the same for a detector. -/
theorem C44_detector (io : MeshIO) (fs : FS) (d : Detector) (path : Path) (later : List SaveOp)
    (hl : ∀ o ∈ later, Spec.target o ≠ Spec.fileFor ".det" path) :
    Detector.load (Spec.fileFor ".det" path) (later.foldl (SaveOp.run io) (d.save path fs)) = .ok d := by
  have h := after_saves io fs (.detector d path) (.detector d) later (det_ext (fileFor_ext _ _))
    (by show (fs.write _ _) (Spec.fileFor ".det" path) = _; rw [savePath_eq]; exact Function.update_self _ _ _) hl
  have h' : (later.foldl (SaveOp.run io) (d.save path fs)) (Spec.fileFor ".det" path) = some (.detector d) := h
  unfold Detector.load
  rw [if_neg (not_not.mpr (fileFor_ext _ _)), h']

/-- Beams a program can hold: built by the constructor with a positive wavelength, then given new vertices any number of
times. -/
inductive Beam.Made (q : Qhull) : Beam → Prop
  | new {vs dir wl pol b} (hwl : 0 < wl) (h : Beam.new q vs dir wl pol = .ok b) : Beam.Made q b
  | setVertices {b vs b'} (hb : Beam.Made q b) (h : b.setVertices q vs = .ok b') : Beam.Made q b'

/-- facts kept by construction and by new vertices -/
theorem Beam.Made.facts {q : Qhull} {b : Beam} (h : Beam.Made q b) :
    0 < b.wavelength ∧ b.waveVector.norm = 2 * Real.pi / b.wavelength ∧ b.polarization.norm = 1 ∧
    q.extremeCount b.vertices = b.vertices.length ∧ b.centroid = meanV b.vertices ∧
    allclose (V3.dot b.polarization b.waveVector) 0 := by
  induction h with
  | @new vs dir wl pol b hwl h =>
    have hw := Beam.norm_wave h hwl
    have hp := Beam.norm_pol h
    unfold Beam.new at h
    simp only at h
    split_ifs at h with h1 h2 h3 h4
    push Not at h2
    obtain rfl := Except.ok.inj h
    exact ⟨hwl, hw, hp, h2, rfl, h4⟩
  | @setVertices b vs b' _ h ih =>
    unfold Beam.setVertices at h
    split_ifs at h with h2
    push Not at h2
    obtain rfl := Except.ok.inj h
    exact ⟨ih.1, ih.2.1, ih.2.2.1, h2, rfl, ih.2.2.2.2.2⟩

/-- C44: the same for a beam, although loading runs the constructor again. -/
theorem C44_beam (io : MeshIO) (q : Qhull) (fs : FS) (b : Beam) (hb : Beam.Made q b) (path : Path) (later : List SaveOp)
    (hl : ∀ o ∈ later, Spec.target o ≠ Spec.fileFor ".beam" path) :
    Beam.load q (Spec.fileFor ".beam" path) (later.foldl (SaveOp.run io) (b.save path fs)) = .ok b := by
  have h := after_saves io fs (.beam b path) _ later (beam_ext (fileFor_ext _ _))
    (by show (fs.write _ _) (Spec.fileFor ".beam" path) = _; rw [savePath_eq]; exact Function.update_self _ _ _) hl
  have h' : (later.foldl (SaveOp.run io) (b.save path fs)) (Spec.fileFor ".beam" path) =
    some (.beam ⟨b.waveVector, b.vertices, b.polarization, b.halfspaces, b.wavelength⟩) := h
  obtain ⟨hwl, hw, hp, hc, hcen, hort⟩ := hb.facts
  have hpi := Real.pi_pos
  have hwp : 0 < b.waveVector.norm := by rw [hw]; positivity
  have e1 : (2 * Real.pi / b.wavelength) • ((1 / b.waveVector.norm) • b.waveVector) = b.waveVector := by
    rw [hw]; ext <;> simp <;> field_simp
  have e2 : (1 / b.polarization.norm) • b.polarization = b.polarization := by rw [hp]; ext <;> simp
  unfold Beam.load
  rw [if_neg (not_not.mpr (fileFor_ext _ _)), h']
  unfold Beam.new
  dsimp only
  rw [if_neg hwl.ne', if_neg (not_not.mpr hc), e1, e2, if_neg, if_pos hort]
  · simp only [← hcen]
  · rintro (h | h)
    · exact hwp.ne' (V3.norm_eq_zero.mpr h)
    · rw [V3.norm_eq_zero.mpr h] at hp; norm_num at hp

/-- C44 (partial): the same for a polycrystal that was given its phase map; missing: polycrystals with the default map. -/
theorem C44_polycrystal_partial (io : MeshIO) (fs : FS) (x : Xfab) (mesh : TetraMesh) (o s : MatArg) (ph : PhasesArg) (map : List ℝ)
    (p : Polycrystal) (hp : Polycrystal.new x mesh o s ph (some map) = .ok p) (moves : List (Motion × ℝ)) (path : Path) (vis : Bool)
    (later : List SaveOp) (hl : ∀ o ∈ later, Spec.target o ≠ Spec.fileFor ".pc" path) :
    let c := moves.foldl (fun c mt => c.transform mt.1 mt.2) p
    Polycrystal.load (Spec.fileFor ".pc" path) (later.foldl (SaveOp.run io) (c.save io path vis fs)) = .ok c := by
  intro c
  have hk : c.mapKind = .torch := by
    have h0 : p.mapKind = .torch := by
      obtain ⟨U, S, kind, pm, eB, hU, hS, hph, heB, rfl⟩ := Polycrystal.new_ok hp
      unfold instantiatePhase at hph
      have := Except.ok.inj hph; simp only [Prod.mk.injEq] at this; exact this.1.symm
    have : ∀ (ms : List (Motion × ℝ)) (p : Polycrystal), p.mapKind = .torch →
        (ms.foldl (fun c mt => c.transform mt.1 mt.2) p).mapKind = .torch := by
      intro ms
      induction ms with
      | nil => intro p h; exact h
      | cons a ms ih => intro p h; exact ih _ h
    exact this moves p h0
  have hpc := pc_ext (fileFor_ext ".pc" path)
  have h := after_saves io fs (.polycrystal c path vis) (.polycrystal c) later hpc
    (by
      show Polycrystal.save io c path vis fs (Spec.fileFor ".pc" path) = _
      have h1 : (fs.write (polySavePaths path).1 (.polycrystal c)) (Spec.fileFor ".pc" path) = some (.polycrystal c) := by
        rw [polySavePaths_fst]; exact Function.update_self _ _ _
      unfold Polycrystal.save
      cases vis with
      | false => exact h1
      | true =>
        push Not at hpc
        show ((_ : FS).write _ _).write _ _ _ = _
        unfold FS.write
        rw [Function.update_of_ne, Function.update_of_ne]
        · exact h1
        · intro h; exact hpc.1 (by rw [h, savePath_eq]; exact fileFor_ext _ _)
        · intro h; exact hpc.2 (by rw [h]; exact io.companion_ext _)) hl
  have h' : (later.foldl (SaveOp.run io) (c.save io path vis fs)) (Spec.fileFor ".pc" path) = some (.polycrystal c) := h
  unfold Polycrystal.load
  rw [if_neg (not_not.mpr (fileFor_ext _ _)), h', ← hk]

/-- C44: a path without the extension is rejected by `load`, whatever files exist. -/
theorem C44_load_rejects (q : Qhull) (fs : FS) (path : Path) :
    (¬ ".motion".toList <:+ path → Motion.load path fs = .error .valueError) ∧
    (¬ ".beam".toList <:+ path → Beam.load q path fs = .error .valueError) ∧
    (¬ ".det".toList <:+ path → Detector.load path fs = .error .valueError) ∧
    (¬ ".pc".toList <:+ path → Polycrystal.load path fs = .error .valueError) :=
  ⟨fun h => if_pos h, fun h => if_pos h, fun h => if_pos h, fun h => if_pos h⟩

/-- C44 fails: a polycrystal constructed with the default phase map does not load back equal: the original cannot be
diffracted (`TypeError`), the loaded one can. -/
theorem C44_default_map_fails (io : MeshIO) (fs : FS) (path : Path) (vis : Bool) :
    ∃ (x : Xfab) (p p' : Polycrystal) (b : Beam) (m : Motion) (lo hi : ℝ) (r : PeaksDict × Polycrystal),
      Polycrystal.new x sceneMesh (.one 1) (.one 0) (.one scenePhase) none = .ok p ∧
      Polycrystal.load (Spec.fileFor ".pc" path) (p.save io path vis fs) = .ok p' ∧ p' ≠ p ∧
      p.diffract x b m lo hi none = .error .typeError ∧ p'.diffract x b m lo hi none = .ok r := by
  obtain ⟨p, hp⟩ := scenePoly_default_new
  have h2 : Real.sqrt 2 / 2 ≤ 1 := by
    have : Real.sqrt 2 ≤ 2 := by rw [Real.sqrt_le_left (by norm_num)]; norm_num
    linarith
  obtain ⟨d, p1, hd, -⟩ := scene_diffract none 0 (Real.pi / 2) 0 (Real.pi / 2) rfl
    (by rw [Real.sin_zero]; positivity) (by rw [Real.sin_pi_div_two]; exact h2)
  have hpe : p = { scenePoly with mapKind := .numpy } := by
    obtain ⟨U, S, kind, pm, eB, hU, hS, hph, heB, he⟩ := Polycrystal.new_ok scenePoly_new
    obtain ⟨U', S', kind', pm', eB', hU', hS', hph', heB', he'⟩ := Polycrystal.new_ok hp
    have e1 : pm = [0] := by
      unfold instantiatePhase at hph
      have := Except.ok.inj hph; simp only [Prod.mk.injEq] at this; exact this.2.symm
    have e2 : instantiatePhase (PhasesArg.one scenePhase).toList none sceneMesh.enod.length = .ok (.numpy, [0]) := rfl
    rw [e2] at hph'
    have e3 := Except.ok.inj hph'
    simp only [Prod.mk.injEq] at e3
    obtain ⟨rfl, rfl⟩ := e3
    subst e1
    rw [hU] at hU'; obtain rfl := Except.ok.inj hU'
    rw [hS] at hS'; obtain rfl := Except.ok.inj hS'
    rw [heB] at heB'; obtain rfl := Except.ok.inj heB'
    rw [he', he]
  have hload : Polycrystal.load (Spec.fileFor ".pc" path) (p.save io path vis fs) = .ok scenePoly := by
    have h1 : (fs.write (polySavePaths path).1 (.polycrystal p)) (Spec.fileFor ".pc" path) = some (.polycrystal p) := by
      rw [polySavePaths_fst]; exact Function.update_self _ _ _
    have hpc := pc_ext (fileFor_ext ".pc" path)
    push Not at hpc
    have h2 : p.save io path vis fs (Spec.fileFor ".pc" path) = some (.polycrystal p) := by
      unfold Polycrystal.save
      cases vis with
      | false => exact h1
      | true =>
        show ((_ : FS).write _ _).write _ _ _ = _
        unfold FS.write
        rw [Function.update_of_ne, Function.update_of_ne]
        · exact h1
        · intro h; exact hpc.1 (by rw [h, savePath_eq]; exact fileFor_ext _ _)
        · intro h; exact hpc.2 (by rw [h]; exact io.companion_ext _)
    unfold Polycrystal.load
    rw [if_neg (not_not.mpr (fileFor_ext _ _)), h2, hpe]
    rfl
  refine ⟨sceneX, p, scenePoly, demoBeam, demoZ, 0, Real.pi / 2, (d, p1), hp, hload, ?_, ?_, hd⟩
  · rw [hpe]
    intro h
    have := congrArg Polycrystal.mapKind h
    cases this
  · exact C43_default_map_cannot_diffract_fails sceneX sceneMesh _ _ scenePhase p hp _ _ _ _

/-! ### C45 -/

theorem MeshIO.ne (io : MeshIO) {p : Path} (h : ".xdmf".toList <:+ p) : io.companion p ≠ p := by
  intro e
  have := ext_ne (a := ".xdm".toList) (b := ".h".toList) (x := 'f') (y := '5') h (e ▸ io.companion_ext p)
  revert this; decide

/-- the visualisation of a polycrystal -/
def Spec.visualOf (p : Polycrystal) : File := .visual p.meshSample p.strainSample p.orientationSample p.phaseMap

theorem takeWhile_ne_append (s t : List Char) (hs : '.' ∉ s) : (s ++ '.' :: t).takeWhile (fun c => decide (c ≠ '.')) = s := by
  induction s with
  | nil => simp
  | cons a s ih =>
    have ha : a ≠ '.' := fun h => hs (h ▸ List.mem_cons_self)
    have := ih fun h => hs (List.mem_cons_of_mem _ h)
    simp only [List.cons_append, List.takeWhile_cons, ha, ne_eq, not_false_eq_true, decide_true, if_true, this]

theorem takeWhile_no_dot (s : List Char) : '.' ∉ s.takeWhile (fun c => decide (c ≠ '.')) := by
  induction s with
  | nil => simp
  | cons a s ih =>
    rw [List.takeWhile_cons]
    split_ifs with h
    · intro h'
      rcases List.mem_cons.mp h' with h' | h'
      · subst h'; simp at h
      · exact ih h'
    · simp

/-- C45 (partial): the `.pc` file and the `.xdmf` file share their stem if the path has no extension `.pc`, or if its only dot is
the one of the extension.  Missing: paths with another dot, such as `./sample.pc`. -/
theorem C45_beside_partial (io : MeshIO) (p : Polycrystal) (path : Path)
    (h : ¬ ".pc".toList <:+ path ∨ ∃ stem, path = stem ++ ".pc".toList ∧ '.' ∉ stem) :
    ∃ stem, (path = stem ∨ path = stem ++ ".pc".toList) ∧ ∀ fs : FS,
      p.save io path true fs (stem ++ ".pc".toList) = some (.polycrystal p) ∧
      p.save io path true fs (stem ++ ".xdmf".toList) = some (Spec.visualOf p) := by
  have key : ∀ stem : Path, polySavePaths path = (stem ++ ".pc".toList, stem ++ ".xdmf".toList) → ∀ fs : FS,
      p.save io path true fs (stem ++ ".pc".toList) = some (.polycrystal p) ∧
      p.save io path true fs (stem ++ ".xdmf".toList) = some (Spec.visualOf p) := by
    intro stem hs fs
    have hx : savePath ".xdmf" (stem ++ ".xdmf".toList) = stem ++ ".xdmf".toList := by
      unfold savePath; rw [if_neg (not_not.mpr (List.suffix_append _ _))]
    have hpc := pc_ext (List.suffix_append stem ".pc".toList)
    push Not at hpc
    constructor
    · unfold Polycrystal.save TetraMesh.save
      rw [hs, if_pos rfl]
      dsimp only
      unfold FS.write
      rw [hx, Function.update_of_ne, Function.update_of_ne, Function.update_self]
      · intro h; exact hpc.1 (h ▸ List.suffix_append _ _)
      · intro h; exact hpc.2 (h ▸ io.companion_ext _)
    · unfold Polycrystal.save TetraMesh.save
      rw [hs, if_pos rfl]
      dsimp only
      unfold FS.write
      rw [hx, Function.update_of_ne, Function.update_self]
      · rfl
      · exact (io.ne (List.suffix_append _ _)).symm
  by_cases hpc : ".pc".toList <:+ path
  · rcases h with h | ⟨stem, rfl, hd⟩
    · exact absurd hpc h
    · refine ⟨stem, .inr rfl, key stem ?_⟩
      unfold polySavePaths beforeDot
      rw [if_neg (not_not.mpr hpc)]
      have := takeWhile_ne_append stem "pc".toList hd
      exact congrArg (fun z => (stem ++ ".pc".toList, z ++ ".xdmf".toList)) this
  · refine ⟨path, .inl rfl, key path ?_⟩
    unfold polySavePaths
    rw [if_pos hpc]

/-- C45 fails for every other path: if the path ends in `.pc` and its stem contains a dot (`./sample.pc`, `run.1.pc`,
`/data.v2/sample.pc`), nothing is written beside the `.pc` file: the visualisation goes to the part of the path before its first
dot. -/
theorem C45_dotted_path_fails (io : MeshIO) (fs : FS) (p : Polycrystal) (stem : Path) (hd : '.' ∈ stem) :
    p.save io (stem ++ ".pc".toList) true fs (stem ++ ".xdmf".toList) = fs (stem ++ ".xdmf".toList) := by
  have hc : io.companion (beforeDot stem ++ ".xdmf".toList) ≠ stem ++ ".xdmf".toList := by
    intro h
    have := ext_ne (a := ".xdm".toList) (b := ".h".toList) (x := 'f') (y := '5') (p := stem ++ ".xdmf".toList)
      (List.suffix_append _ _) (h ▸ io.companion_ext _)
    revert this; decide
  have hb : beforeDot (stem ++ ".pc".toList) = beforeDot stem := by
    unfold beforeDot
    have : ∀ (s t : List Char), '.' ∈ s → (s ++ t).takeWhile (fun c => decide (c ≠ '.')) = s.takeWhile (fun c => decide (c ≠ '.')) := by
      intro s t
      induction s with
      | nil => intro h; simp at h
      | cons a s ih =>
        intro h
        simp only [List.cons_append, List.takeWhile_cons]
        split_ifs with ha
        · congr 1
          apply ih
          rcases List.mem_cons.mp h with h | h
          · subst h; simp at ha
          · exact h
        · rfl
    exact this stem _ hd
  have hx : savePath ".xdmf" (beforeDot stem ++ ".xdmf".toList) = beforeDot stem ++ ".xdmf".toList := by
    unfold savePath; rw [if_neg (not_not.mpr (List.suffix_append _ _))]
  unfold Polycrystal.save TetraMesh.save polySavePaths
  rw [if_pos rfl, if_neg (not_not.mpr (List.suffix_append _ _))]
  dsimp only
  rw [hb, hx]
  unfold FS.write
  rw [Function.update_of_ne (Ne.symm hc), Function.update_of_ne, Function.update_of_ne]
  · intro h
    have := ext_ne (a := ".xdm".toList) (b := ".p".toList) (x := 'f') (y := 'c') (p := stem ++ ".xdmf".toList)
      (List.suffix_append _ _) (h ▸ List.suffix_append _ _)
    revert this; decide
  · intro h
    have := List.append_cancel_right h
    exact takeWhile_no_dot stem (by rw [this] at hd; exact hd)

/-- C45 fails: two polycrystals saved as `run.1.pc` and `run.2.pc` share the visualisation file `run.xdmf`; the second save
overwrites the first polycrystal's visualisation. -/
theorem C45_overwrites_fails (io : MeshIO) (fs : FS) (p q : Polycrystal) :
    let fs' := q.save io "run.2.pc".toList true (p.save io "run.1.pc".toList true fs)
    p.save io "run.1.pc".toList true fs "run.xdmf".toList = some (Spec.visualOf p) ∧
    fs' "run.xdmf".toList = some (Spec.visualOf q) := by
  have h1 : polySavePaths "run.1.pc".toList = ("run.1.pc".toList, "run.xdmf".toList) := by
    unfold polySavePaths; rw [if_neg (not_not.mpr ⟨"run.1".toList, rfl⟩)]; rfl
  have h2 : polySavePaths "run.2.pc".toList = ("run.2.pc".toList, "run.xdmf".toList) := by
    unfold polySavePaths; rw [if_neg (not_not.mpr ⟨"run.2".toList, rfl⟩)]; rfl
  have hsuf : ".xdmf".toList <:+ "run.xdmf".toList := ⟨"run".toList, rfl⟩
  have hx : savePath ".xdmf" "run.xdmf".toList = "run.xdmf".toList := by
    unfold savePath; rw [if_neg (not_not.mpr hsuf)]
  have key : ∀ (r : Polycrystal) (path : Path) (g : FS), (polySavePaths path).2 = "run.xdmf".toList →
      r.save io path true g "run.xdmf".toList = some (Spec.visualOf r) := by
    intro r path g hr
    unfold Polycrystal.save TetraMesh.save
    rw [if_pos rfl, hr, hx]
    unfold FS.write
    rw [Function.update_of_ne (io.ne hsuf).symm, Function.update_self]
    rfl
  exact ⟨key p _ fs (by rw [h1]), key q _ _ (by rw [h2])⟩

/-- meshio's rule, `run.xdmf` to `run.h5`, as an instance of the parameter -/
noncomputable def demoIO : MeshIO := ⟨fun p => p.dropLast.dropLast.dropLast.dropLast.dropLast ++ ".h5".toList, fun _ => List.suffix_append _ _⟩

/-- hypotheses are met: a history of later saves that includes a polycrystal with visualisation; a made beam; paths of both kinds -/
example : (∀ o ∈ [SaveOp.polycrystal scenePoly "a.pc".toList true, .motion demoZ "b".toList], Spec.target o ≠ Spec.fileFor ".motion" "a".toList) ∧
    Beam.Made ⟨List.length, fun _ => cubeFacets⟩ demoBeam ∧ '.' ∈ "./sample".toList ∧ '.' ∉ "sample".toList ∧
    ¬ ".pc".toList <:+ "v1.0/sample".toList := by
  have hp := Real.pi_pos
  have e1 : Spec.fileFor ".motion" "a".toList = "a.motion".toList := by
    unfold Spec.fileFor; rw [if_neg (by decide)]; rfl
  refine ⟨?_, .new (by positivity) demoBeam_new, by decide, by decide, by decide⟩
  intro o ho
  rw [e1]
  simp only [List.mem_cons, List.not_mem_nil, or_false] at ho
  rcases ho with rfl | rfl
  · show Spec.fileFor ".pc" "a.pc".toList ≠ _
    unfold Spec.fileFor; rw [if_pos ⟨"a".toList, rfl⟩]; decide
  · show Spec.fileFor ".motion" "b".toList ≠ _
    unfold Spec.fileFor; rw [if_neg (by decide)]; decide

end XRD
