import Verif.Lemmas.Alias
import Verif.SpecAlias
import Verif.Lemmas.Polycrystal

/-! The memory invariant of a script with one mesh and one polycrystal. -/

namespace XRD
open V3 M3 Spec
open Classical

theorem Spec.ArgIn.to {a : Arg} {n : ℕ} (h : ArgIn a n) : a.In n := by
  intro l hl
  cases a with
  | numpy k f => simp only [Arg.addr, Option.some.injEq] at hl; subst hl; exact h
  | tensor k f d => simp only [Arg.addr, Option.some.injEq] at hl; subst hl; exact h
  | python c => simp [Arg.addr] at hl

theorem keptBy_iff (cpu : Bool) (a : Arg) (l : ℕ) : KeptBy cpu a l ↔ a.shared cpu = some l := by
  unfold KeptBy
  cases a with
  | numpy k f => cases f <;> cases cpu <;> simp [Arg.shared]
  | tensor k f d => cases f <;> cases d <;> simp [Arg.shared]
  | python c => simp [Arg.shared]

theorem matKeptBy_iff (cpu : Bool) (a : MatRef) (l : ℕ) : MatKeptBy cpu a l ↔ a.shared cpu = some l := by
  unfold MatKeptBy
  cases a with
  | one b => simp [MatRef.shared]
  | many b => simp [MatRef.shared, keptBy_iff]
  | other => simp [MatRef.shared]

namespace PolyMem
/-- the arrays of a polycrystal besides those of its meshes -/
def others (p : PolyMem) : List ℕ := [p.orientationLab, p.orientationSample, p.strainLab, p.strainSample, p.phaseMap]

theorem mem_others {p : PolyMem} {l : ℕ} : l ∈ p.others ↔ l = p.orientationLab ∨ l = p.orientationSample ∨
    l = p.strainLab ∨ l = p.strainSample ∨ l = p.phaseMap := by
  simp [others]

theorem view_congr {p : PolyMem} {h h' : Heap} (e1 : ∀ l ∈ p.meshLab.locs, h'.cell l = h.cell l)
    (e2 : ∀ l ∈ p.meshSample.locs, h'.cell l = h.cell l) (e3 : ∀ l ∈ p.others, h'.cell l = h.cell l) :
    p.view h' = p.view h := by
  simp only [mem_others] at e3
  simp only [view]
  rw [MeshObj.view_congr e1, MeshObj.view_congr e2, e3 _ (Or.inl rfl), e3 _ (Or.inr (Or.inl rfl)),
    e3 p.strainLab (by simp), e3 p.strainSample (by simp), e3 p.phaseMap (by simp)]
end PolyMem

/-- the memory invariant: caller's arrays below `n0`; `S` are the caller's arrays the polycrystal kept -/
structure MemInv (n0 : ℕ) (S : ℕ → Prop) (w : World) : Prop where
  nle : n0 ≤ w.heap.next
  g : w.mesh.Ok w.heap
  a : w.poly.meshLab.Ok w.heap
  b : w.poly.meshSample.Ok w.heap
  lo : ∀ l < w.heap.next, l ∈ w.mesh.locs ∨ l ∈ w.poly.meshLab.locs ∨ l ∈ w.poly.meshSample.locs → n0 ≤ l
  ga : ∀ l ∈ w.mesh.locs, l ∉ w.poly.meshLab.locs
  gb : ∀ l ∈ w.mesh.locs, l ∉ w.poly.meshSample.locs
  ab : ∀ l ∈ w.poly.meshLab.locs, l ∉ w.poly.meshSample.locs
  o : ∀ l ∈ w.poly.others, l < w.heap.next ∧ l ∉ w.mesh.locs ∧ l ∉ w.poly.meshLab.locs ∧
    l ∉ w.poly.meshSample.locs ∧ (l < n0 → S l)

/-- the value-level reading of a script's state -/
def World.values (w : World) : Values := ⟨w.heap.cell, w.mesh.view w.heap, w.poly.view w.heap⟩

/-- agreement of memory and values: the objects agree, and so do the caller's arrays -/
structure Agree (n0 : ℕ) (w : World) (s : Values) : Prop where
  arr : ∀ l < n0, w.heap.cell l = s.arrays l
  mesh : w.mesh.view w.heap = s.mesh
  poly : w.poly.view w.heap = s.poly

theorem run_agree {cpu : Bool} {n0 : ℕ} {S : ℕ → Prop} {w : World} {s : Values} (I : MemInv n0 S w) (A : Agree n0 w s)
    (act : Act) (hact : ∀ l c, act = .edit l c → l < n0 ∧ ¬ S l) :
    MemInv n0 S (w.run cpu act) ∧ Agree n0 (w.run cpu act) (s.run act) := by
  obtain ⟨h, M, p⟩ := w
  have i0 := I.nle; have ig := I.g; have ia := I.a; have ib := I.b; have ilo := I.lo
  have iga := I.ga; have igb := I.gb; have iab := I.ab; have io := I.o
  dsimp only at i0 ig ia ib ilo iga igb iab io
  have loM : ∀ l ∈ M.locs, n0 ≤ l := fun l hl => ilo l (ig.lt l hl) (Or.inl hl)
  have loA : ∀ l ∈ p.meshLab.locs, n0 ≤ l := fun l hl => ilo l (ia.lt l hl) (Or.inr (Or.inl hl))
  have loB : ∀ l ∈ p.meshSample.locs, n0 ≤ l := fun l hl => ilo l (ib.lt l hl) (Or.inr (Or.inr hl))
  cases act with
  | edit l c =>
    obtain ⟨hl, hS⟩ := hact l c rfl
    have hw : ∀ k, k ≠ l → (h.write l c).cell k = h.cell k := fun k hk => by
      rw [Heap.write_cell, if_neg hk]
    have kM : ∀ k ∈ M.locs, (h.write l c).cell k = h.cell k := fun k hk => hw k (by have := loM k hk; omega)
    have kA : ∀ k ∈ p.meshLab.locs, (h.write l c).cell k = h.cell k := fun k hk => hw k (by have := loA k hk; omega)
    have kB : ∀ k ∈ p.meshSample.locs, (h.write l c).cell k = h.cell k := fun k hk => hw k (by have := loB k hk; omega)
    have kO : ∀ k ∈ p.others, (h.write l c).cell k = h.cell k := fun k hk => hw k (by
      rintro rfl
      exact hS ((io k hk).2.2.2.2 hl))
    refine ⟨⟨i0, ig.mono (le_refl _), ia.mono (le_refl _), ib.mono (le_refl _), ilo, iga, igb, iab, io⟩, ?_, ?_, ?_⟩
    · intro k hk
      simp only [World.run, Values.run, Heap.write_cell]
      split_ifs
      · rfl
      · exact A.arr k hk
    · exact (MeshObj.view_congr kM).trans A.mesh
    · exact (PolyMem.view_congr kA kB kO).trans A.poly
  | transform m t =>
    obtain ⟨st, hv⟩ := MeshObj.update_step ia m t
    simp only [World.run, Values.run, PolyMem.transform]
    generalize p.meshLab.update h m t = r at st hv
    obtain ⟨L, h1⟩ := r
    dsimp only at st hv ⊢
    have e1 : ∀ k < h.next, k ∉ p.meshLab.locs → h1.cell k = h.cell k := st.frame
    set R := rotMat m.axis (m.angle * t)
    set c1 : Cell := .mats ((h1.cell p.orientationLab).ms.map fun U => R * U)
    set h2 := (h1.alloc c1).2 with hh2
    set c2 : Cell := .mats ((h2.cell p.strainLab).ms.map fun e => R * e * R.tr)
    set h3 := (h2.alloc c2).2 with hh3
    have n2 : h2.next = h1.next + 1 := rfl
    have n3 : h3.next = h1.next + 2 := rfl
    have x12 : Heap.Ext h1 h2 := Heap.ext_alloc _ _
    have x23 : Heap.Ext h2 h3 := Heap.ext_alloc _ _
    have x13 := x12.trans x23
    have hne := st.next
    have kM : ∀ k ∈ M.locs, h3.cell k = h.cell k := fun k hk => by
      have := ig.lt k hk
      rw [x13.cell k (by omega), e1 k this (iga k hk)]
    have kB : ∀ k ∈ p.meshSample.locs, h3.cell k = h.cell k := fun k hk => by
      have := ib.lt k hk
      rw [x13.cell k (by omega), e1 k this (fun hc => iab k hc hk)]
    have kO : ∀ k ∈ p.others, h3.cell k = h.cell k := fun k hk => by
      have := io k hk
      rw [x13.cell k (by omega), e1 k this.1 this.2.2.1]
    have kL : ∀ k ∈ L.locs, h3.cell k = h1.cell k := fun k hk => x13.cell k (st.ok.lt k hk)
    have mO : p.orientationLab ∈ p.others := by simp [PolyMem.others]
    have mS : p.strainLab ∈ p.others := by simp [PolyMem.others]
    have oO : h1.cell p.orientationLab = h.cell p.orientationLab := e1 _ (io _ mO).1 (io _ mO).2.2.1
    have oS : h2.cell p.strainLab = h.cell p.strainLab := by
      rw [x12.cell _ (by have := (io _ mS).1; omega), e1 _ (io _ mS).1 (io _ mS).2.2.1]
    have cO : h3.cell h1.next = c1 := by
      rw [x23.cell _ (by omega)]
      rw [hh2, Heap.alloc_cell, if_pos rfl]
    have cS : h3.cell h2.next = c2 := by
      rw [hh3, Heap.alloc_cell, if_pos rfl]
    have sep : ∀ k, h.next ≤ k → k ∉ M.locs ∧ k ∉ p.meshSample.locs := fun k hk =>
      ⟨fun hc => by have := ig.lt k hc; omega, fun hc => by have := ib.lt k hc; omega⟩
    refine ⟨⟨?_, ig.mono ?_, st.ok.mono ?_, ib.mono ?_, ?_, ?_, igb, ?_, ?_⟩, ?_, ?_, ?_⟩
    · show n0 ≤ h3.next; omega
    · show h.next ≤ h3.next; omega
    · show h1.next ≤ h3.next; omega
    · show h.next ≤ h3.next; omega
    · rintro k - (hk | hk | hk)
      · exact loM k hk
      · rcases st.locs k hk with h' | h'
        · exact loA k h'
        · omega
      · exact loB k hk
    · intro k hk hc
      rcases st.locs k hc with h' | h'
      · exact iga k hk h'
      · exact (sep k h').1 hk
    · intro k hk
      rcases st.locs k hk with h' | h'
      · exact iab k h'
      · exact (sep k h').2
    · intro k hk
      rw [PolyMem.mem_others] at hk
      dsimp only at hk ⊢
      have nL : ∀ k, k ∈ p.others → k ∉ L.locs := fun k hk hc => by
        rcases st.locs k hc with h' | h'
        · exact (io k hk).2.2.1 h'
        · have := (io k hk).1; omega
      have fresh : ∀ k, h1.next ≤ k → k < h3.next → k < h3.next ∧ k ∉ M.locs ∧ k ∉ L.locs ∧ k ∉ p.meshSample.locs ∧ (k < n0 → S k) :=
        fun k h1k h3k => ⟨h3k, (sep k (by omega)).1, fun hc => by have := st.ok.lt k hc; omega, (sep k (by omega)).2, fun hc => by omega⟩
      have old : ∀ k ∈ p.others, k < h3.next ∧ k ∉ M.locs ∧ k ∉ L.locs ∧ k ∉ p.meshSample.locs ∧ (k < n0 → S k) :=
        fun k hk => ⟨by have := (io k hk).1; omega, (io k hk).2.1, nL k hk, (io k hk).2.2.2.1, (io k hk).2.2.2.2⟩
      rcases hk with rfl | rfl | rfl | rfl | rfl
      · exact fresh _ (le_refl _) (by show h1.next < h3.next; omega)
      · exact old _ (by simp [PolyMem.others])
      · exact fresh _ (by show h1.next ≤ h2.next; omega) (by show h2.next < h3.next; omega)
      · exact old _ (by simp [PolyMem.others])
      · exact old _ (by simp [PolyMem.others])
    · intro k hk
      dsimp only
      rw [x13.cell k (by omega), e1 k (by omega) (fun hc => by have := loA k hc; omega)]
      exact A.arr k hk
    · exact (MeshObj.view_congr kM).trans A.mesh
    · have e := A.poly
      dsimp only at e ⊢
      rw [← e]
      simp only [PolyMem.view, Polycrystal.transform, MeshObj.view_congr kL, hv, MeshObj.view_congr kB]
      simp only [Heap.alloc_fst, cO, cS]
      rw [kO p.orientationSample (by simp [PolyMem.others]), kO p.strainSample (by simp [PolyMem.others]),
        kO p.phaseMap (by simp [PolyMem.others])]
      simp only [c1, c2, Cell.ms, oO, oS]
      rfl
  | moveLab v =>
    obtain ⟨st, hv⟩ := MeshObj.translate_step cpu ia v
    simp only [World.run, Values.run]
    generalize p.meshLab.translate cpu h v = r at st hv
    obtain ⟨L, h1⟩ := r
    dsimp only at st hv ⊢
    have hne := st.next
    have kM : ∀ k ∈ M.locs, h1.cell k = h.cell k := fun k hk => st.frame k (ig.lt k hk) (iga k hk)
    have kB : ∀ k ∈ p.meshSample.locs, h1.cell k = h.cell k := fun k hk =>
      st.frame k (ib.lt k hk) (fun hc => iab k hc hk)
    have kO : ∀ k ∈ p.others, h1.cell k = h.cell k := fun k hk => st.frame k (io k hk).1 (io k hk).2.2.1
    refine ⟨⟨le_trans i0 hne, ig.mono hne, st.ok, ib.mono hne, ?_, ?_, igb, ?_, ?_⟩, ?_, ?_, ?_⟩
    · rintro k - (hk | hk | hk)
      · exact loM k hk
      · rcases st.locs k hk with h' | h'
        · exact loA k h'
        · omega
      · exact loB k hk
    · intro k hk hc
      rcases st.locs k hc with h' | h'
      · exact iga k hk h'
      · have := ig.lt k hk; omega
    · intro k hk hc
      rcases st.locs k hk with h' | h'
      · exact iab k h' hc
      · have := ib.lt k hc; omega
    · intro k hk
      have hk' : k ∈ p.others := hk
      refine ⟨lt_of_lt_of_le (io k hk').1 hne, (io k hk').2.1, fun hc => ?_, (io k hk').2.2.2⟩
      rcases st.locs k hc with h' | h'
      · exact (io k hk').2.2.1 h'
      · have := (io k hk').1; omega
    · intro k hk
      dsimp only
      rw [st.frame k (by omega) (fun hc => by have := loA k hc; omega)]
      exact A.arr k hk
    · exact (MeshObj.view_congr kM).trans A.mesh
    · have e := A.poly
      dsimp only at e ⊢
      rw [← e]
      simp only [PolyMem.view, hv, MeshObj.view_congr kB]
      rw [kO p.orientationLab (by simp [PolyMem.others]), kO p.strainLab (by simp [PolyMem.others]),
        kO p.orientationSample (by simp [PolyMem.others]), kO p.strainSample (by simp [PolyMem.others]),
        kO p.phaseMap (by simp [PolyMem.others])]
  | moveSample v =>
    obtain ⟨st, hv⟩ := MeshObj.translate_step cpu ib v
    simp only [World.run, Values.run]
    generalize p.meshSample.translate cpu h v = r at st hv
    obtain ⟨L, h1⟩ := r
    dsimp only at st hv ⊢
    have hne := st.next
    have kM : ∀ k ∈ M.locs, h1.cell k = h.cell k := fun k hk => st.frame k (ig.lt k hk) (igb k hk)
    have kA : ∀ k ∈ p.meshLab.locs, h1.cell k = h.cell k := fun k hk => st.frame k (ia.lt k hk) (iab k hk)
    have kO : ∀ k ∈ p.others, h1.cell k = h.cell k := fun k hk => st.frame k (io k hk).1 (io k hk).2.2.2.1
    refine ⟨⟨le_trans i0 hne, ig.mono hne, ia.mono hne, st.ok, ?_, iga, ?_, ?_, ?_⟩, ?_, ?_, ?_⟩
    · rintro k - (hk | hk | hk)
      · exact loM k hk
      · exact loA k hk
      · rcases st.locs k hk with h' | h'
        · exact loB k h'
        · omega
    · intro k hk hc
      rcases st.locs k hc with h' | h'
      · exact igb k hk h'
      · have := ig.lt k hk; omega
    · intro k hk hc
      rcases st.locs k hc with h' | h'
      · exact iab k hk h'
      · have := ia.lt k hk; omega
    · intro k hk
      have hk' : k ∈ p.others := hk
      refine ⟨lt_of_lt_of_le (io k hk').1 hne, (io k hk').2.1, (io k hk').2.2.1, fun hc => ?_, (io k hk').2.2.2.2⟩
      rcases st.locs k hc with h' | h'
      · exact (io k hk').2.2.2.1 h'
      · have := (io k hk').1; omega
    · intro k hk
      dsimp only
      rw [st.frame k (by omega) (fun hc => by have := loB k hc; omega)]
      exact A.arr k hk
    · exact (MeshObj.view_congr kM).trans A.mesh
    · have e := A.poly
      dsimp only at e ⊢
      rw [← e]
      simp only [PolyMem.view, hv, MeshObj.view_congr kA]
      rw [kO p.orientationLab (by simp [PolyMem.others]), kO p.strainLab (by simp [PolyMem.others]),
        kO p.orientationSample (by simp [PolyMem.others]), kO p.strainSample (by simp [PolyMem.others]),
        kO p.phaseMap (by simp [PolyMem.others])]
  | moveGiven v =>
    obtain ⟨st, hv⟩ := MeshObj.translate_step cpu ig v
    simp only [World.run, Values.run]
    generalize M.translate cpu h v = r at st hv
    obtain ⟨L, h1⟩ := r
    dsimp only at st hv ⊢
    have hne := st.next
    have kA : ∀ k ∈ p.meshLab.locs, h1.cell k = h.cell k := fun k hk =>
      st.frame k (ia.lt k hk) (fun hc => iga k hc hk)
    have kB : ∀ k ∈ p.meshSample.locs, h1.cell k = h.cell k := fun k hk =>
      st.frame k (ib.lt k hk) (fun hc => igb k hc hk)
    have kO : ∀ k ∈ p.others, h1.cell k = h.cell k := fun k hk => st.frame k (io k hk).1 (io k hk).2.1
    refine ⟨⟨le_trans i0 hne, st.ok, ia.mono hne, ib.mono hne, ?_, ?_, ?_, iab, ?_⟩, ?_, ?_, ?_⟩
    · rintro k - (hk | hk | hk)
      · rcases st.locs k hk with h' | h'
        · exact loM k h'
        · omega
      · exact loA k hk
      · exact loB k hk
    · intro k hk hc
      rcases st.locs k hk with h' | h'
      · exact iga k h' hc
      · have := ia.lt k hc; omega
    · intro k hk hc
      rcases st.locs k hk with h' | h'
      · exact igb k h' hc
      · have := ib.lt k hc; omega
    · intro k hk
      have hk' : k ∈ p.others := hk
      refine ⟨lt_of_lt_of_le (io k hk').1 hne, fun hc => ?_, (io k hk').2.2⟩
      rcases st.locs k hc with h' | h'
      · exact (io k hk').2.1 h'
      · have := (io k hk').1; omega
    · intro k hk
      dsimp only
      rw [st.frame k (by omega) (fun hc => by have := loM k hc; omega)]
      exact A.arr k hk
    · have e := A.mesh
      dsimp only at e ⊢
      rw [hv, e]
    · exact (PolyMem.view_congr kA kB kO).trans A.poly
  | updateGiven m t =>
    obtain ⟨st, hv⟩ := MeshObj.update_step ig m t
    simp only [World.run, Values.run]
    generalize M.update h m t = r at st hv
    obtain ⟨L, h1⟩ := r
    dsimp only at st hv ⊢
    have hne := st.next
    have kA : ∀ k ∈ p.meshLab.locs, h1.cell k = h.cell k := fun k hk =>
      st.frame k (ia.lt k hk) (fun hc => iga k hc hk)
    have kB : ∀ k ∈ p.meshSample.locs, h1.cell k = h.cell k := fun k hk =>
      st.frame k (ib.lt k hk) (fun hc => igb k hc hk)
    have kO : ∀ k ∈ p.others, h1.cell k = h.cell k := fun k hk => st.frame k (io k hk).1 (io k hk).2.1
    refine ⟨⟨le_trans i0 hne, st.ok, ia.mono hne, ib.mono hne, ?_, ?_, ?_, iab, ?_⟩, ?_, ?_, ?_⟩
    · rintro k - (hk | hk | hk)
      · rcases st.locs k hk with h' | h'
        · exact loM k h'
        · omega
      · exact loA k hk
      · exact loB k hk
    · intro k hk hc
      rcases st.locs k hk with h' | h'
      · exact iga k h' hc
      · have := ia.lt k hc; omega
    · intro k hk hc
      rcases st.locs k hk with h' | h'
      · exact igb k h' hc
      · have := ib.lt k hc; omega
    · intro k hk
      have hk' : k ∈ p.others := hk
      refine ⟨lt_of_lt_of_le (io k hk').1 hne, fun hc => ?_, (io k hk').2.2⟩
      rcases st.locs k hc with h' | h'
      · exact (io k hk').2.1 h'
      · have := (io k hk').1; omega
    · intro k hk
      dsimp only
      rw [st.frame k (by omega) (fun hc => by have := loM k hc; omega)]
      exact A.arr k hk
    · have e := A.mesh
      dsimp only at e ⊢
      rw [hv, e]
    · exact (PolyMem.view_congr kA kB kO).trans A.poly

theorem runs_agree {cpu : Bool} {n0 : ℕ} {S : ℕ → Prop} (acts : List Act)
    (hact : ∀ l c, Act.edit l c ∈ acts → l < n0 ∧ ¬ S l) {w : World} {s : Values} (I : MemInv n0 S w) (A : Agree n0 w s) :
    MemInv n0 S (acts.foldl (World.run cpu) w) ∧
      Agree n0 (acts.foldl (World.run cpu) w) (acts.foldl Values.run s) := by
  induction acts generalizing w s with
  | nil => exact ⟨I, A⟩
  | cons a as ih =>
    obtain ⟨I', A'⟩ := run_agree (cpu := cpu) I A a (fun l c h => hact l c (by rw [h]; exact List.mem_cons_self))
    exact ih (fun l c h => hact l c (List.mem_cons_of_mem _ h)) I' A'

end XRD
