import Verif.Lemmas.Alias3
import Verif.Props.Scene

/-! C75: who owns an array. -/

namespace XRD
open V3 M3 Spec
open scoped Classical

/-! ### Meshes -/

/-- C75 (meshes, full).  A mesh built from the caller's coordinate array shares nothing with it, whatever its dtype or
device: in every script that overwrites its own arrays and translates and updates the mesh in any order, the mesh is
what the translations and updates alone make it, and the caller's arrays are what the caller's own edits alone make
them. -/
theorem C75_mesh_owns_its_data {cpu : Bool} {h : Heap} {coord : Arg} {enod : List (Q4 ℕ)} {m : MeshObj} {h1 : Heap}
    (hc : ArgIn coord h.next) (hn : MeshObj.new cpu h coord enod = .ok (m, h1)) :
    TetraMesh.new (coord.value h).pts enod = .ok (m.view h1) ∧
    ∀ acts : List MeshAct, (∀ l c, MeshAct.edit l c ∈ acts → l < h.next) →
      let s := acts.foldl (MeshAct.run cpu) (m, h1)
      s.1.view s.2 = acts.foldl MeshAct.onMesh (m.view h1) ∧
      ∀ l < h.next, s.2.cell l = acts.foldl MeshAct.onArrays h.cell l := by
  obtain ⟨v, ok, ext, lo⟩ := MeshObj.new_ok hc.to hn
  refine ⟨v, ?_⟩
  intro acts hacts
  have main : ∀ (acts : List MeshAct), (∀ l c, MeshAct.edit l c ∈ acts → l < h.next) → ∀ (g : Heap) (M : MeshObj)
      (T : TetraMesh) (f : ℕ → Cell), M.Ok g → h.next ≤ g.next → (∀ l ∈ M.locs, h.next ≤ l) → M.view g = T →
      (∀ l < h.next, g.cell l = f l) →
      (acts.foldl (MeshAct.run cpu) (M, g)).1.view (acts.foldl (MeshAct.run cpu) (M, g)).2 =
          acts.foldl MeshAct.onMesh T ∧
        ∀ l < h.next, (acts.foldl (MeshAct.run cpu) (M, g)).2.cell l = acts.foldl MeshAct.onArrays f l := by
    intro acts
    induction acts with
    | nil => intro _ g M T f _ _ _ hT hf; exact ⟨hT, hf⟩
    | cons a as ih =>
      intro hE g M T f hok hle hlo hT hf
      have hE' : ∀ l c, MeshAct.edit l c ∈ as → l < h.next := fun l c hm => hE l c (List.mem_cons_of_mem _ hm)
      simp only [List.foldl_cons]
      cases a with
      | edit l c =>
        have hl := hE l c List.mem_cons_self
        refine ih hE' (g.write l c) M T _ (hok.mono (le_refl _)) hle hlo ?_ ?_
        · rw [← hT]
          refine MeshObj.view_congr fun k hk => ?_
          rw [Heap.write_cell, if_neg (by have := hlo k hk; omega)]
        · intro k hk
          simp only [Heap.write_cell, MeshAct.onArrays]
          split_ifs
          · rfl
          · exact hf k hk
      | translate v =>
        obtain ⟨st, hv⟩ := MeshObj.translate_step cpu hok v
        refine ih hE' (M.translate cpu g v).2 (M.translate cpu g v).1 _ f st.ok (le_trans hle st.next) ?_ ?_ ?_
        · intro l hl
          rcases st.locs l hl with h' | h'
          · exact hlo l h'
          · omega
        · rw [hv, hT]; rfl
        · intro l hl
          rw [st.frame l (by omega) (fun hm => by have := hlo l hm; omega)]
          exact hf l hl
      | update b t =>
        obtain ⟨st, hv⟩ := MeshObj.update_step hok b t
        refine ih hE' (M.update g b t).2 (M.update g b t).1 _ f st.ok (le_trans hle st.next) ?_ ?_ ?_
        · intro l hl
          rcases st.locs l hl with h' | h'
          · exact hlo l h'
          · omega
        · rw [hv, hT]; rfl
        · intro l hl
          rw [st.frame l (by omega) (fun hm => by have := hlo l hm; omega)]
          exact hf l hl
  exact main acts hacts h1 m _ _ ok ext.next lo rfl ext.cell

/-! ### Beams -/

theorem edited_cell {h : Heap} {n : ℕ} (edits : List (ℕ × Cell)) (he : ∀ e ∈ edits, e.1 < n) :
    ∀ l, n ≤ l → (edited h edits).cell l = h.cell l := by
  induction edits generalizing h with
  | nil => intro l _; rfl
  | cons e es ih =>
    intro l hl
    simp only [edited, List.foldl_cons]
    have := ih (h := h.write e.1 e.2) (fun e' he' => he e' (List.mem_cons_of_mem _ he')) l hl
    rw [edited] at this
    rw [this, Heap.write_cell, if_neg]
    have := he e List.mem_cons_self
    omega

theorem edited_avoid {h : Heap} (edits : List (ℕ × Cell)) {l : ℕ} (he : ∀ e ∈ edits, e.1 ≠ l) :
    (edited h edits).cell l = h.cell l := by
  induction edits generalizing h with
  | nil => rfl
  | cons e es ih =>
    simp only [edited, List.foldl_cons]
    have := ih (h := h.write e.1 e.2) (fun e' he' => he e' (List.mem_cons_of_mem _ he'))
    rw [edited] at this
    rw [this, Heap.write_cell, if_neg (Ne.symm (he e List.mem_cons_self))]

/-- C75 (beams, full).  Constructing a beam leaves the caller's arrays alone, and the beam keeps nothing of them: whatever
the caller later writes into its arrays, the beam stays as constructed. -/
theorem C75_beam_owns_its_data {cpu : Bool} {q : Qhull} {h : Heap} {vertices direction pol : Arg} {wavelength : ℝ}
    {b : BeamObj} {h1 : Heap} (hv : ArgIn vertices h.next) (hd : ArgIn direction h.next) (hp : ArgIn pol h.next)
    (hn : BeamObj.new cpu q h vertices direction wavelength pol = .ok (b, h1)) :
    Beam.new q (vertices.value h).pts (direction.value h).vec wavelength (pol.value h).vec = .ok (b.view h1) ∧
    (∀ l < h.next, h1.cell l = h.cell l) ∧
    ∀ edits : List (ℕ × Cell), (∀ e ∈ edits, e.1 < h.next) → b.view (edited h1 edits) = b.view h1 := by
  unfold BeamObj.new at hn
  have ED := direction.ensured cpu h hd.to
  generalize direction.ensureTorch cpu h = r at ED hn
  obtain ⟨rd, h2⟩ := r
  dsimp only at ED hn
  split_ifs at hn with hw
  have nd := ED.ext.next
  rw [ED.value] at hn
  set dir := (direction.value h).vec with hdir
  set cw : Cell := .points [(2 * Real.pi / wavelength) • ((1 / dir.norm) • dir)] with hcw
  have xw : Heap.Ext h2 (h2.alloc cw).2 := Heap.ext_alloc _ _
  have ww : (h2.alloc cw).2.cell h2.next = cw := by rw [Heap.alloc_cell, if_pos rfl]
  have wn : (h2.alloc cw).2.next = h2.next + 1 := rfl
  generalize hW : (h2.alloc cw).2 = hWv at xw ww hn wn
  have x2 := ED.ext.trans xw
  have EV := vertices.ensured cpu hWv (hv.to.mono x2.next)
  generalize vertices.ensureTorch cpu hWv = r at EV hn
  obtain ⟨rv, h3⟩ := r
  dsimp only at EV hn
  have nv := EV.ext.next
  unfold BeamObj.setVertices at hn
  have evv : h3.cell rv = vertices.value h := by
    have := EV.value
    rw [Arg.value_ext hv.to x2] at this
    exact this
  rw [evv] at hn
  dsimp only at hn
  by_cases hq : q.extremeCount (vertices.value h).pts ≠ (vertices.value h).pts.length
  · rw [if_pos hq] at hn; simp at hn
  rw [if_neg hq] at hn
  dsimp only at hn
  set V := vertices.value h with hV
  set h4 := (h3.alloc V).2 with h4d
  have x34 : Heap.Ext h3 h4 := Heap.ext_alloc _ _
  have n4 : h4.next = h3.next + 1 := rfl
  have g4 : h4.cell h3.next = V := by rw [h4d, Heap.alloc_cell, if_pos rfl]
  set h5 := (h4.alloc (.points [meanV V.pts])).2 with h5d
  have x45 : Heap.Ext h4 h5 := Heap.ext_alloc _ _
  have n5 : h5.next = h4.next + 1 := rfl
  have g5 : h5.cell h4.next = .points [meanV V.pts] := by rw [h5d, Heap.alloc_cell, if_pos rfl]
  set h6 := (h5.alloc (.planes (q.equations V.pts))).2 with h6d
  have x56 : Heap.Ext h5 h6 := Heap.ext_alloc _ _
  have n6 : h6.next = h5.next + 1 := rfl
  have g6 : h6.cell h5.next = .planes (q.equations V.pts) := by rw [h6d, Heap.alloc_cell, if_pos rfl]
  have x6 : Heap.Ext h h6 := (x2.trans EV.ext).trans (x34.trans (x45.trans x56))
  have EP := pol.ensured cpu h6 (hp.to.mono x6.next)
  have epv : (pol.ensureTorch cpu h6).2.cell (pol.ensureTorch cpu h6).1 = pol.value h := by
    rw [EP.value, Arg.value_ext hp.to x6]
  generalize pol.ensureTorch cpu h6 = r at EP epv hn
  obtain ⟨rp, h7⟩ := r
  dsimp only at EP epv hn
  rw [epv] at hn
  set pv := (pol.value h).vec with hpv
  have n7 := EP.ext.next
  set h8 := (h7.alloc (.points [(1 / pv.norm) • pv])).2 with h8d
  have x78 : Heap.Ext h7 h8 := Heap.ext_alloc _ _
  have g8 : h8.cell h7.next = .points [(1 / pv.norm) • pv] := by rw [h8d, Heap.alloc_cell, if_pos rfl]
  have x68 : Heap.Ext h6 h8 := EP.ext.trans x78
  have w8 : h8.cell h2.next = cw := by
    rw [((EV.ext.trans (x34.trans (x45.trans x56))).trans x68).cell h2.next (by omega), ww]
  by_cases hz : dir = 0 ∨ pv = 0
  · rw [if_pos hz] at hn; simp at hn
  rw [if_neg hz] at hn
  simp only [Heap.alloc_fst, g8, w8] at hn
  split_ifs at hn with ha
  simp only [Except.ok.injEq, Prod.mk.injEq] at hn
  obtain ⟨rfl, rfl⟩ := hn
  refine ⟨?_, (x6.trans x68).cell, ?_⟩
  · have hq' : ¬ (q.extremeCount V.pts ≠ V.pts.length) := hq
    simp only [Beam.new, if_neg hw, if_neg hq', if_neg hz]
    rw [if_pos (by simpa [hcw, Cell.vec, Cell.pts] using ha)]
    simp only [BeamObj.view, w8, g8]
    rw [(x45.trans (x56.trans x68)).cell h3.next (by omega), g4, (x56.trans x68).cell h4.next (by omega), g5,
      x68.cell h5.next (by omega), g6]
    simp [hcw, Cell.vec, Cell.pts, Cell.pls]
  · intro edits he
    have key := edited_cell (h := h8) edits he
    simp only [BeamObj.view]
    rw [key h2.next (by omega), key h3.next (by omega), key h4.next (by omega), key h5.next (by omega),
      key h7.next (by omega)]

/-! ### Polycrystals -/

/-- C75 (polycrystals, partial).  A polycrystal built from a mesh and the caller's arrays shares nothing with the mesh it
was given, its two meshes share nothing with each other, no call writes into a caller's array, and an edit by the caller
of any array other than a kept one changes nothing: in every such script the mesh, the polycrystal and the caller's
arrays are what plain values would be.  Missing for the full property: edits of the arrays that were passed as
`(N,3,3)` float64 orientations or strains, or as float64 phase map, on the default device
(`C75_kept_orientation_fails`). -/
theorem C75_polycrystal_owns_its_data_partial {x : Xfab} {cpu : Bool} {h0 : Heap} {coord : Arg} {enod : List (Q4 ℕ)}
    {mesh : MeshObj} {h1 : Heap} {U S : MatRef} {phases : PhasesArg} {map : Option Arg} {p : PolyMem} {h2 : Heap}
    (hc : ArgIn coord h0.next) (hU : MatIn U h0.next) (hS : MatIn S h0.next) (hm : ∀ a ∈ map, ArgIn a h0.next)
    (hmesh : MeshObj.new cpu h0 coord enod = .ok (mesh, h1))
    (hpoly : PolyMem.new x cpu h1 mesh U S phases map = .ok (p, h2)) :
    Polycrystal.new x (mesh.view h1) (U.value h0) (S.value h0) phases (map.map fun a => (a.value h0).rs) =
        .ok (p.view h2) ∧
    ∀ acts : List Act,
      (∀ l c, Act.edit l c ∈ acts → l < h0.next ∧ ¬ MatKeptBy cpu U l ∧ ¬ MatKeptBy cpu S l ∧
        ∀ a ∈ map, ¬ KeptBy cpu a l) →
      let w := acts.foldl (World.run cpu) ⟨h2, mesh, p⟩
      let s := acts.foldl Values.run ⟨h0.cell, mesh.view h1, p.view h2⟩
      w.mesh.view w.heap = s.mesh ∧ w.poly.view w.heap = s.poly ∧ ∀ l < h0.next, w.heap.cell l = s.arrays l := by
  obtain ⟨v, ok, ext, lo⟩ := MeshObj.new_ok hc.to hmesh
  obtain ⟨vp, xp, I, -⟩ := PolyMem.new_ok ext.next hU hS hm ok lo hpoly
  have vm : (map.map fun a => (a.value h1).rs) = map.map fun a => (a.value h0).rs := by
    cases map with
    | none => rfl
    | some a => simp only [Option.map_some, Arg.value_ext (hm a (by simp)).to ext]
  rw [MatRef.value_ext hU (le_refl _) ext, MatRef.value_ext hS (le_refl _) ext, vm] at vp
  refine ⟨vp, ?_⟩
  intro acts hacts
  have A : Agree h0.next ⟨h2, mesh, p⟩ ⟨h0.cell, mesh.view h1, p.view h2⟩ :=
    ⟨(ext.trans xp).cell, MeshObj.view_congr fun l hl => xp.cell l (ok.lt l hl), rfl⟩
  obtain ⟨-, A'⟩ := runs_agree (cpu := cpu) acts (fun l c hlc => by
    obtain ⟨h1', h2', h3', h4'⟩ := hacts l c hlc
    refine ⟨h1', ?_⟩
    rintro (hk | hk | hk)
    · exact h2' ((matKeptBy_iff cpu U l).2 hk)
    · exact h3' ((matKeptBy_iff cpu S l).2 hk)
    · cases map with
      | none => simp at hk
      | some a => exact h4' a (by simp) ((keptBy_iff cpu a l).2 (by simpa using hk))) I A
  exact ⟨A'.mesh, A'.poly, A'.arr⟩

/-- C75 (polycrystals, the missing part is false).  When orientations are passed as an `(N,3,3)` float64 array on the
default device, a later write `Us` into that array replaces the polycrystal's lab orientations, with which `diffract`
computes, while the sample orientations and the strained lattices (`_eB`), computed from the old orientations, stay. -/
theorem C75_kept_orientation_fails {x : Xfab} {cpu : Bool} {h0 : Heap} {coord : Arg} {enod : List (Q4 ℕ)}
    {mesh : MeshObj} {h1 : Heap} {U S : MatRef} {phases : PhasesArg} {map : Option Arg} {p : PolyMem} {h2 : Heap}
    (hc : ArgIn coord h0.next) (hU : MatIn U h0.next) (hS : MatIn S h0.next) (hm : ∀ a ∈ map, ArgIn a h0.next)
    (hmesh : MeshObj.new cpu h0 coord enod = .ok (mesh, h1))
    (hpoly : PolyMem.new x cpu h1 mesh U S phases map = .ok (p, h2)) {l : ℕ} (hk : MatKeptBy cpu U l) (Us : List M3)
    (hS' : ¬ MatKeptBy cpu S l) (hm' : ∀ a ∈ map, ¬ KeptBy cpu a l) :
    p.view (h2.write l (.mats Us)) = { p.view h2 with orientationLab := Us } := by
  obtain ⟨v, ok, ext, lo⟩ := MeshObj.new_ok hc.to hmesh
  obtain ⟨vp, xp, I, hpU, -, -, hfacts⟩ := PolyMem.new_ok ext.next hU hS hm ok lo hpoly
  have hl : p.orientationLab = l := hpU l ((matKeptBy_iff cpu U l).1 hk)
  have hln : l < h0.next := by
    obtain ⟨b, rfl, hb⟩ := hk
    exact Spec.ArgIn.to (a := b) hU l (shared_addr ((keptBy_iff cpu b l).1 hb))
  have hw : ∀ k, k ≠ l → (h2.write l (.mats Us)).cell k = h2.cell k := fun k hkl => by
    rw [Heap.write_cell, if_neg hkl]
  have e1 : p.meshLab.view (h2.write l (.mats Us)) = p.meshLab.view h2 := MeshObj.view_congr fun k hk' => hw k (by
    have := I.lo k (I.a.lt k hk') (Or.inr (Or.inl hk')); omega)
  have e2 : p.meshSample.view (h2.write l (.mats Us)) = p.meshSample.view h2 := MeshObj.view_congr fun k hk' => hw k (by
    have := I.lo k (I.b.lt k hk') (Or.inr (Or.inr hk')); omega)
  -- the other arrays are at other addresses
  have e3 : p.strainLab ≠ l := by
    intro hc'
    rcases hfacts.1 with h' | h'
    · exact hS' ((matKeptBy_iff cpu S l).2 (by rw [hc'] at h'; exact h'))
    · omega
  have e4 : p.phaseMap ≠ l := by
    intro hc'
    rcases hfacts.2.1 with h' | h'
    · cases map with
      | none => simp at h'
      | some a => exact hm' a (by simp) ((keptBy_iff cpu a l).2 (by rw [hc'] at h'; simpa using h'))
    · omega
  have e5 : p.orientationSample ≠ l := by have := hfacts.2.2.1; omega
  have e6 : p.strainSample ≠ l := by have := hfacts.2.2.2; omega
  simp only [PolyMem.view, e1, e2, hw _ e3, hw _ e4, hw _ e5, hw _ e6]
  rw [Heap.write_cell, if_pos hl]
  rfl

end XRD
