import Verif.Model.Alias

/-! Memory lemmas for the aliasing model. -/

namespace XRD
open V3 M3
open Classical

namespace Heap

/-- `h'` extends `h`: nothing in use was changed -/
structure Ext (h h' : Heap) : Prop where
  next : h.next ≤ h'.next
  cell : ∀ l < h.next, h'.cell l = h.cell l

theorem Ext.refl (h : Heap) : Ext h h := ⟨le_refl _, fun _ _ => rfl⟩

theorem Ext.trans {a b c : Heap} (h1 : Ext a b) (h2 : Ext b c) : Ext a c :=
  ⟨le_trans h1.next h2.next, fun l hl => (h2.cell l (lt_of_lt_of_le hl h1.next)).trans (h1.cell l hl)⟩

theorem ext_alloc (h : Heap) (c : Cell) : Ext h (h.alloc c).2 :=
  ⟨Nat.le_succ _, fun l hl => Function.update_of_ne (Nat.ne_of_lt hl) _ _⟩

@[simp] theorem alloc_fst (h : Heap) (c : Cell) : (h.alloc c).1 = h.next := rfl
@[simp] theorem alloc_next (h : Heap) (c : Cell) : (h.alloc c).2.next = h.next + 1 := rfl
theorem alloc_cell (h : Heap) (c : Cell) (l : ℕ) :
    (h.alloc c).2.cell l = if l = h.next then c else h.cell l := by
  simp [alloc, Function.update_apply]
@[simp] theorem write_next (h : Heap) (l : ℕ) (c : Cell) : (h.write l c).next = h.next := rfl
theorem write_cell (h : Heap) (l : ℕ) (c : Cell) (k : ℕ) :
    (h.write l c).cell k = if k = l then c else h.cell k := by
  simp [write, Function.update_apply]
end Heap

namespace Arg
/-- the caller's array, if the argument is one, is in use -/
def In (a : Arg) (n : ℕ) : Prop := ∀ l, a.addr = some l → l < n

theorem In.mono {a : Arg} {n m : ℕ} (h : a.In n) (hnm : n ≤ m) : a.In m := fun l hl => lt_of_lt_of_le (h l hl) hnm

theorem value_ext {a : Arg} {h h' : Heap} (ha : a.In h.next) (e : Heap.Ext h h') : a.value h' = a.value h := by
  cases a with
  | numpy l f => exact e.cell l (ha l rfl)
  | tensor l f d => exact e.cell l (ha l rfl)
  | python c => rfl

/-- what `ensure_torch` does to the memory -/
structure Ensured (cpu : Bool) (h : Heap) (a : Arg) (r : ℕ) (h' : Heap) : Prop where
  ext : Heap.Ext h h'
  value : h'.cell r = a.value h
  lt : r < h'.next
  old : ∀ l, a.shared cpu = some l → r = l
  new : a.shared cpu = none → h.next ≤ r

theorem ensured (cpu : Bool) (h : Heap) (a : Arg) (ha : a.In h.next) :
    Ensured cpu h a (a.ensureTorch cpu h).1 (a.ensureTorch cpu h).2 := by
  cases a with
  | numpy l f =>
    by_cases hf : (f && cpu) = true
    · simp only [ensureTorch, if_pos hf]
      exact ⟨Heap.Ext.refl h, rfl, ha l rfl, fun k hk => by simpa [shared, hf] using hk,
        fun hk => by simp [shared, hf] at hk⟩
    · simp only [ensureTorch, if_neg hf]
      exact ⟨Heap.ext_alloc _ _, by rw [Heap.alloc_cell]; simp [value], Nat.lt_succ_self _,
        fun k hk => by simp [shared, hf] at hk, fun _ => le_refl _⟩
  | tensor l f d =>
    by_cases hf : (f && d) = true
    · simp only [ensureTorch, if_pos hf]
      exact ⟨Heap.Ext.refl h, rfl, ha l rfl, fun k hk => by simpa [shared, hf] using hk,
        fun hk => by simp [shared, hf] at hk⟩
    · simp only [ensureTorch, if_neg hf]
      exact ⟨Heap.ext_alloc _ _, by rw [Heap.alloc_cell]; simp [value], Nat.lt_succ_self _,
        fun k hk => by simp [shared, hf] at hk, fun _ => le_refl _⟩
  | python c =>
    simp only [ensureTorch]
    exact ⟨Heap.ext_alloc _ _, by rw [Heap.alloc_cell]; simp [value], Nat.lt_succ_self _,
      fun k hk => by simp [shared] at hk, fun _ => le_refl _⟩
end Arg

namespace MeshObj

/-- the arrays of a mesh -/
def locs (m : MeshObj) : List ℕ := [m.points, m.coord, m.ecentroids, m.espherecentroids, m.centroid]

theorem mem_locs {m : MeshObj} {l : ℕ} : l ∈ m.locs ↔
    l = m.points ∨ l = m.coord ∨ l = m.ecentroids ∨ l = m.espherecentroids ∨ l = m.centroid := by
  simp [locs]

/-- the arrays are in use, and those written in place are separate -/
structure Ok (m : MeshObj) (h : Heap) : Prop where
  lt : ∀ l ∈ m.locs, l < h.next
  pe : m.points ≠ m.ecentroids
  ps : m.points ≠ m.espherecentroids
  pc : m.points ≠ m.centroid
  ce : m.coord ≠ m.ecentroids
  cs : m.coord ≠ m.espherecentroids
  cc : m.coord ≠ m.centroid
  es : m.ecentroids ≠ m.espherecentroids
  ec : m.ecentroids ≠ m.centroid
  sc : m.espherecentroids ≠ m.centroid

theorem view_congr {m : MeshObj} {h h' : Heap} (e : ∀ l ∈ m.locs, h'.cell l = h.cell l) : m.view h' = m.view h := by
  simp only [mem_locs] at e
  simp only [view]
  rw [e m.points (by simp), e m.coord (by simp), e m.ecentroids (by simp), e m.espherecentroids (by simp),
    e m.centroid (by simp)]

/-- a mesh operation: its result is sound, it touches its own arrays only -/
structure Step (h : Heap) (m : MeshObj) (h' : Heap) (m' : MeshObj) : Prop where
  ok : m'.Ok h'
  next : h.next ≤ h'.next
  frame : ∀ l < h.next, l ∉ m.locs → h'.cell l = h.cell l
  locs : ∀ l ∈ m'.locs, l ∈ m.locs ∨ h.next ≤ l

theorem Ok.mono {m : MeshObj} {h h' : Heap} (o : m.Ok h) (e : h.next ≤ h'.next) : m.Ok h' :=
  { o with lt := fun l hl => lt_of_lt_of_le (o.lt l hl) e }

theorem translate_step (cpu : Bool) {h : Heap} {m : MeshObj} (o : m.Ok h) (v : V3) :
    Step h m (m.translate cpu h v).2 (m.translate cpu h v).1 ∧
      (m.translate cpu h v).1.view (m.translate cpu h v).2 = (m.view h).translate v := by
  have hp := o.lt m.points (by simp [MeshObj.locs])
  have hco := o.lt m.coord (by simp [MeshObj.locs])
  have he := o.lt m.ecentroids (by simp [MeshObj.locs])
  have hs := o.lt m.espherecentroids (by simp [MeshObj.locs])
  have hc := o.lt m.centroid (by simp [MeshObj.locs])
  have h1 := o.pe; have h2 := o.ps; have h3 := o.pc; have h4 := o.ce; have h5 := o.cs
  have h6 := o.cc; have h7 := o.es; have h8 := o.ec; have h9 := o.sc
  cases cpu with
  | true =>
    refine ⟨⟨⟨?_, h1, h2, h3, h1, h2, h3, h7, h8, h9⟩, ?_, ?_, ?_⟩, ?_⟩
    · intro l hl
      rw [mem_locs] at hl
      simp only [translate, Arg.ensureTorch, Bool.and_self, if_true, Heap.write_next] at hl ⊢
      omega
    · simp [translate, Arg.ensureTorch]
    · intro l hl hn
      rw [mem_locs] at hn
      push Not at hn
      simp only [translate, Arg.ensureTorch, Bool.and_self, if_true, Heap.write_cell]
      rw [if_neg hn.2.2.2.2, if_neg hn.2.2.2.1, if_neg hn.2.2.1, if_neg hn.1]
    · intro l hl
      rw [mem_locs] at hl ⊢
      simp only [translate, Arg.ensureTorch, Bool.and_self, if_true] at hl
      left; omega
    · simp [translate, view, Arg.ensureTorch, TetraMesh.translate, Heap.write_cell, Cell.pts, Cell.vec, h1, h2, h3, h7,
        h8, h9, Ne.symm h1, Ne.symm h2, Ne.symm h3, Ne.symm h7, Ne.symm h8, Ne.symm h9]
  | false =>
    have e1 : h.next ≠ m.points := by omega
    have e2 : h.next ≠ m.ecentroids := by omega
    have e3 : h.next ≠ m.espherecentroids := by omega
    have e4 : h.next ≠ m.centroid := by omega
    refine ⟨⟨⟨?_, h1, h2, h3, e2, e3, e4, h7, h8, h9⟩, ?_, ?_, ?_⟩, ?_⟩
    · intro l hl
      rw [mem_locs] at hl
      simp [translate, Arg.ensureTorch] at hl ⊢
      omega
    · simp [translate, Arg.ensureTorch]
    · intro l hl hn
      rw [mem_locs] at hn
      push Not at hn
      simp only [translate, Arg.ensureTorch, Bool.and_false, Bool.false_eq_true, if_false, Heap.write_cell,
        Heap.alloc_cell, Heap.write_next]
      rw [if_neg hn.2.2.2.2, if_neg hn.2.2.2.1, if_neg hn.2.2.1, if_neg (by omega), if_neg hn.1]
    · intro l hl
      rw [mem_locs] at hl ⊢
      simp [translate, Arg.ensureTorch] at hl
      omega
    · simp [translate, view, Arg.ensureTorch, TetraMesh.translate, Heap.write_cell, Heap.alloc_cell, Cell.pts, Cell.vec,
        h1, h2, h3, h7, h8, h9, Ne.symm h1, Ne.symm h2, Ne.symm h3, Ne.symm h7, Ne.symm h8, Ne.symm h9, e1, e2, e3, e4,
        Ne.symm e1, Ne.symm e2, Ne.symm e3, Ne.symm e4]

theorem update_step {h : Heap} {m : MeshObj} (o : m.Ok h) (b : Motion) (t : ℝ) :
    Step h m (m.update h b t).2 (m.update h b t).1 ∧
      (m.update h b t).1.view (m.update h b t).2 = (m.view h).update b t := by
  have hp := o.lt m.points (by simp [MeshObj.locs])
  refine ⟨⟨⟨?_, ?_, ?_, ?_, ?_, ?_, ?_, ?_, ?_, ?_⟩, ?_, ?_, ?_⟩, ?_⟩
  · intro l hl
    rw [mem_locs] at hl
    simp [update] at hl ⊢
    omega
  any_goals (simp [update]; try omega)
  · intro l hl hn
    simp only [Heap.alloc_cell, Heap.alloc_next]
    rw [if_neg (by omega), if_neg (by omega), if_neg (by omega), if_neg (by omega)]
  · intro l hl
    rw [mem_locs] at hl ⊢
    simp at hl
    omega
  · have e0 : m.points ≠ h.next := by omega
    have e1 : m.points ≠ h.next + 1 := by omega
    have e2 : m.points ≠ h.next + 2 := by omega
    have e3 : m.points ≠ h.next + 3 := by omega
    simp [view, TetraMesh.update, Heap.alloc_cell, Cell.pts, Cell.vec, e0, e1, e2, e3, add_assoc]

theorem deepcopy_step {h : Heap} {m : MeshObj} (o : m.Ok h) :
    (m.deepcopy h).1.Ok (m.deepcopy h).2 ∧ Heap.Ext h (m.deepcopy h).2 ∧ (∀ l ∈ (m.deepcopy h).1.locs, h.next ≤ l) ∧
      (m.deepcopy h).1.view (m.deepcopy h).2 = m.view h := by
  refine ⟨⟨?_, ?_, ?_, ?_, ?_, ?_, ?_, ?_, ?_, ?_⟩, ?_, ?_, ?_⟩
  · intro l hl
    rw [mem_locs] at hl
    simp [deepcopy] at hl ⊢
    omega
  any_goals (simp [deepcopy]; try omega)
  · exact ((Heap.ext_alloc _ _).trans (Heap.ext_alloc _ _)).trans
      (((Heap.ext_alloc _ _).trans (Heap.ext_alloc _ _)).trans (Heap.ext_alloc _ _))
  · intro l hl
    rw [mem_locs] at hl
    simp at hl
    omega
  · simp [view, Heap.alloc_cell, add_assoc]

/-- what building a mesh does to the memory -/
theorem new_ok {cpu : Bool} {h : Heap} {coord : Arg} {enod : List (Q4 ℕ)} {m : MeshObj} {h1 : Heap}
    (hc : coord.In h.next) (hn : MeshObj.new cpu h coord enod = .ok (m, h1)) :
    TetraMesh.new (coord.value h).pts enod = .ok (m.view h1) ∧ m.Ok h1 ∧ Heap.Ext h h1 ∧
      ∀ l ∈ m.locs, h.next ≤ l := by
  unfold MeshObj.new at hn
  have E := coord.ensured cpu h hc
  generalize coord.ensureTorch cpu h = c at E hn
  obtain ⟨r, h'⟩ := c
  dsimp only at E hn
  have hE := E.ext.next
  have hx := E.ext
  have hv := E.value
  clear E
  generalize coord.value h = V at hv ⊢
  have hcell : (h'.alloc (h'.cell r)).2.cell h'.next = V := by
    rw [Heap.alloc_cell]; simp [hv]
  cases cpu with
  | true =>
    simp only [Arg.ensureNumpy, Arg.value, Arg.ensureTorch, Bool.and_self, if_true, Heap.alloc_fst, hcell] at hn
    cases hT : TetraMesh.new V.pts enod with
    | error e => rw [hT] at hn; simp at hn
    | ok T =>
      rw [hT] at hn
      simp only [Except.ok.injEq, Prod.mk.injEq] at hn
      obtain ⟨rfl, rfl⟩ := hn
      have hTd : T.points = V.pts ∧ T.coord = V.pts := by
        unfold TetraMesh.new at hT
        split_ifs at hT
        simp only [Except.ok.injEq] at hT
        subst hT
        exact ⟨rfl, rfl⟩
      refine ⟨?_, ⟨?_, ?_, ?_, ?_, ?_, ?_, ?_, ?_, ?_, ?_⟩, ?_, ?_⟩
      · congr 1
        simp only [view, Heap.alloc_cell, Heap.alloc_next, Heap.alloc_fst]
        ext1 <;> simp [Cell.pts, Cell.vec, hv, hTd, add_assoc]
      · intro l hl
        rw [mem_locs] at hl
        simp at hl ⊢
        omega
      any_goals (simp; try omega)
      · exact hx.trans (((Heap.ext_alloc _ _).trans (Heap.ext_alloc _ _)).trans
          ((Heap.ext_alloc _ _).trans (Heap.ext_alloc _ _)))
      · intro l hl
        rw [mem_locs] at hl
        simp at hl
        omega
  | false =>
    simp only [Arg.ensureNumpy, Arg.value, Arg.ensureTorch, Bool.and_false, Bool.false_eq_true, if_false,
      Heap.alloc_fst, hcell] at hn
    have hcell2 : ((h'.alloc (h'.cell r)).2.alloc (V)).2.cell (h'.alloc (h'.cell r)).2.next
        = V := by
      rw [Heap.alloc_cell]; simp
    rw [hcell2] at hn
    cases hT : TetraMesh.new V.pts enod with
    | error e => rw [hT] at hn; simp at hn
    | ok T =>
      rw [hT] at hn
      simp only [Except.ok.injEq, Prod.mk.injEq] at hn
      obtain ⟨rfl, rfl⟩ := hn
      have hTd : T.points = V.pts ∧ T.coord = V.pts := by
        unfold TetraMesh.new at hT
        split_ifs at hT
        simp only [Except.ok.injEq] at hT
        subst hT
        exact ⟨rfl, rfl⟩
      refine ⟨?_, ⟨?_, ?_, ?_, ?_, ?_, ?_, ?_, ?_, ?_, ?_⟩, ?_, ?_⟩
      · congr 1
        simp only [view, Heap.alloc_cell, Heap.alloc_next, Heap.alloc_fst]
        ext1 <;> simp [Cell.pts, Cell.vec, hv, hTd, add_assoc]
      · intro l hl
        rw [mem_locs] at hl
        simp at hl ⊢
        omega
      any_goals (simp; try omega)
      · exact hx.trans ((((Heap.ext_alloc _ _).trans (Heap.ext_alloc _ _)).trans
          ((Heap.ext_alloc _ _).trans (Heap.ext_alloc _ _))).trans (Heap.ext_alloc _ _))
      · intro l hl
        rw [mem_locs] at hl
        simp at hl
        omega

end MeshObj
end XRD
