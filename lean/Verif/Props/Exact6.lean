import Verif.Props.World
import Verif.Props.Export
import Verif.Props.MacroTotal

/-! Exact extents of C43, C85 and C35. -/

namespace XRD
open V3 M3 Fl Spec
open scoped Classical

/-- **C43**, exact extent: whatever the crystal is built from, after any motions, whenever the angle limits pass, `diffract` fails on
the stored phase map (`TypeError`) if and only if the crystal has a phase and the constructor was not given a map. -/
theorem C43_map_usable_iff (x x2 : Xfab) (mesh : TetraMesh) (o s : MatArg) (ph : PhasesArg) (map : Option (List ℝ)) (p : Polycrystal)
    (hp : Polycrystal.new x mesh o s ph map = .ok p) (hist : List (Motion × ℝ)) (b : Beam) (m : Motion)
    (lo hi : ℝ) (det : Option Detector) (hl : ∃ l, (p.transforms hist).limits b lo hi det = .ok l) :
    (p.transforms hist).diffract x2 b m lo hi det = .error .typeError ↔ map = none ∧ ph.toList ≠ [] := by
  have st : ∀ (h : List (Motion × ℝ)) (q : Polycrystal), (q.transforms h).mapKind = q.mapKind ∧ (q.transforms h).phases = q.phases := by
    intro h
    induction h with
    | nil => intro q; exact ⟨rfl, rfl⟩
    | cons mt h ih => intro q; exact ih (q.transform mt.1 mt.2)
  obtain ⟨⟨lo', hi'⟩, hl⟩ := hl
  obtain ⟨hk, hq⟩ := st hist p
  have hph : p.phases = ph.toList ∧ (p.mapKind = .numpy ↔ map = none) := by
    obtain ⟨U, S, kind, pm, eB, hU, hS, hph, heB, rfl⟩ := Polycrystal.new_ok hp
    refine ⟨rfl, ?_⟩
    unfold instantiatePhase at hph
    cases map with
    | none =>
      dsimp only at hph
      split_ifs at hph
      have := Except.ok.inj hph; simp only [Prod.mk.injEq] at this
      simp [← this.1]
    | some l =>
      have := Except.ok.inj hph; simp only [Prod.mk.injEq] at this
      simp [← this.1]
  unfold Polycrystal.diffract
  rw [hl]
  dsimp only
  unfold diffractCore computePeaks
  have e1 : (((p.transforms hist).setupPhases x2 b.wavelength lo' hi').crystal.mapKind = .numpy) ↔ map = none := by
    rw [← hph.2, ← hk]; exact Iff.rfl
  have e2 : (((p.transforms hist).setupPhases x2 b.wavelength lo' hi').crystal.phases = []) ↔ ph.toList = [] := by
    rw [← hph.1, ← hq]
    show List.map _ (p.transforms hist).phases = [] ↔ _
    rw [List.map_eq_nil_iff]
  by_cases hc : map = none ∧ ph.toList ≠ []
  · rw [if_pos ⟨e1.2 hc.1, fun h => hc.2 (e2.1 h)⟩]
    simp [hc]
  · rw [if_neg (fun h => hc ⟨e1.1 h.1, fun h' => h.2 (e2.2 h')⟩)]
    dsimp only
    refine ⟨fun h => ?_, fun h => absurd h hc⟩
    exfalso
    split_ifs at h <;> cases h

/-- **C85**, exact extent: of data that can be saved, the caller's dictionary is left as it was only if it is empty, and the same call
can be made a second time exactly if the dictionary is empty or the mesh has one element. -/
theorem C85_dictionary_iff (mesh : TetraMesh) (data : ElementData) (h : ∀ kv ∈ data, IsSeq mesh.enod.length kv.2) :
    ((mesh.saveData data).1 = data ↔ data = []) ∧
    ((∃ v, (mesh.saveData (mesh.saveData data).1).2 = .ok v) ↔ data = [] ∨ mesh.enod.length = 1) := by
  have hw := wrapData_ok fun kv hkv => (⟨_, h kv hkv⟩ : IsAnySeq kv.2)
  have e1 : (mesh.saveData data).1 = data.map fun kv => (kv.1, inList kv.2) := by
    unfold TetraMesh.saveData
    rw [hw]
    dsimp only
    split_ifs <;> rfl
  have grow : ∀ d : PyData, inList d ≠ d := by
    intro d hd
    have := congrArg sizeOf hd
    simp [inList] at this
    omega
  constructor
  · rw [e1]
    refine ⟨fun e => ?_, fun e => by rw [e]; rfl⟩
    cases data with
    | nil => rfl
    | cons kv rest =>
      rw [List.map_cons, List.cons.injEq] at e
      exact absurd (congrArg Prod.snd e.1) (grow kv.2)
  · refine ⟨fun ⟨v, hv⟩ => ?_, fun hor => ?_⟩
    · by_contra hc
      push Not at hc
      have := (C85_dictionary_fails mesh hc.2 data hc.1 h).2.2.2
      rw [hv] at this; cases this
    · rw [e1]
      rcases hor with rfl | h1
      · obtain ⟨v, hv, -⟩ := C85_writes_data_partial mesh [] (by simp)
        exact ⟨v, hv⟩
      · obtain ⟨v, hv, -⟩ := C85_writes_data_partial mesh (data.map fun kv => (kv.1, inList kv.2)) (by
          intro kv hkv
          obtain ⟨kv, -, rfl⟩ := List.mem_map.mp hkv
          exact ⟨_, rfl, by rw [h1]; rfl⟩)
        exact ⟨v, hv⟩

/-- **C35**, exact extent for elements inside the beam and well inside the detector: a frame contains the sum of `intensity × volume`
of its peaks if and only if this sum is zero or a pixel has unit area. -/
theorem C35_total_iff (D : Detector) (hz : 0 < D.pz) (hy : 0 < D.py) (hs : 0 < D.sigma) (hm : 0 ≤ D.maxRadius)
    (env : RenderEnv) (hhull : BeamHull env.hull) (d : PeaksDict) (hcol : d.columns = peakColumns) (hlen : ∀ r ∈ d.peaks, r.length = 25)
    (hax : norm d.motion.axis = 1) (mesh : TetraMesh)
    (frames : ℤ) (ml : Option ℝ) (mi : ℝ) (t : Stack) (out : PeaksDict)
    (hr : D.render env d mesh frames .macro ml mi = .ok (some t, out)) (B : ℕ) (hB : D.maxRadius ≤ B)
    (hV : ∀ r ∈ out.peaks, ∃ g e vs, val out.columns r "grain_index" = (g : ℕ) ∧ (elements mesh.coord mesh.enod)[g]? = some e ∧
      vs = ([e.a, e.b, e.c, e.d].map fun p => d.motion.call1 p (val out.columns r "diffraction_times")) ∧
      val out.columns r "volumes" = tetVolume e ∧ 0 < tetVolume e ∧ (∀ v ∈ vs, d.beam.contains v) ∧
      ProjectsInside D vs (kOut out.columns r) B) (f : ℕ) (hf : f < (max frames 1).toNat) :
    total2 D.nz D.ny (t f) = power out.columns (out.peaks.filter fun r => val out.columns r "frame" = (f : ℝ)) ↔
      D.pz * D.py = 1 ∨ power out.columns (out.peaks.filter fun r => val out.columns r "frame" = (f : ℝ)) = 0 := by
  rw [C35_macro_total_full_elements_partial D hz hy hs hm env hhull d hcol hlen hax mesh frames ml mi t out hr B hB hV f hf]
  constructor
  · intro h
    by_cases h0 : power out.columns (out.peaks.filter fun r => val out.columns r "frame" = (f : ℝ)) = 0
    · exact Or.inr h0
    · left
      apply mul_right_cancel₀ h0
      rw [h, _root_.one_mul]
  · rintro (h | h)
    · rw [h, _root_.one_mul]
    · rw [h]; simp

/-- both sides of `C43_map_usable_iff` occur: the scene with and without its map -/
example : (scenePoly.transforms []).diffract sceneX demoBeam demoZ 0 (Real.pi / 2) none ≠ .error .typeError :=
  fun h => absurd ((C43_map_usable_iff sceneX sceneX sceneMesh (.one 1) (.one 0) (.one scenePhase) (some [0]) scenePoly scenePoly_new [] demoBeam
    demoZ 0 (Real.pi / 2) none ⟨_, rfl⟩).1 h).1 (by simp)

/-- a dictionary to which `C85_dictionary_iff` applies -/
example : ∀ kv ∈ [("energy", PyData.nums [1, 2])], IsSeq 2 kv.2 := by
  intro kv hkv
  rw [List.mem_singleton] at hkv
  rw [hkv]; exact seq_nums [1, 2]

end XRD
