import Verif.Lemmas.Alias2

/-! Construction of a polycrystal in memory. -/

namespace XRD
open V3 M3 Spec
open Classical

theorem shared_addr {cpu : Bool} {a : Arg} {l : ℕ} (h : a.shared cpu = some l) : a.addr = some l := by
  rw [← keptBy_iff] at h
  rcases h with ⟨rfl, -⟩ | rfl <;> rfl

/-- an array the polycrystal holds: kept from the caller, or fresh -/
structure Held (n0 : ℕ) (kept : Option ℕ) (h : Heap) (r : ℕ) (h' : Heap) : Prop where
  ext : Heap.Ext h h'
  lt : r < h'.next
  src : (kept = some r ∧ r < n0) ∨ h.next ≤ r

theorem ensure_held {cpu : Bool} {h : Heap} {n0 : ℕ} {a : Arg} (ha : ArgIn a n0) (hn : n0 ≤ h.next) :
    Held n0 (a.shared cpu) h (a.ensureTorch cpu h).1 (a.ensureTorch cpu h).2 := by
  have E := a.ensured cpu h (ha.to.mono hn)
  refine ⟨E.ext, E.lt, ?_⟩
  cases hs : a.shared cpu with
  | none => exact Or.inr (E.new hs)
  | some l =>
    have hr := E.old l hs
    left
    rw [hr]
    exact ⟨rfl, ha.to l (shared_addr hs)⟩

theorem instantiate_held {cpu : Bool} {h : Heap} {n0 n : ℕ} {a : MatRef} (ha : MatIn a n0) (hn : n0 ≤ h.next)
    {r : ℕ} {h' : Heap} (e : a.instantiate cpu h n = .ok (r, h')) :
    Held n0 (a.shared cpu) h r h' ∧ instantiateMat (a.value h) n = .ok (h'.cell r).ms := by
  cases a with
  | one b =>
    have E := b.ensured cpu h (Spec.ArgIn.to (a := b) ha |>.mono hn)
    simp only [MatRef.instantiate, Except.ok.injEq, Prod.mk.injEq] at e
    generalize b.ensureTorch cpu h = q at E e
    obtain ⟨q1, q2⟩ := q
    dsimp only at E e
    obtain ⟨rfl, rfl⟩ := Prod.mk.inj e
    refine ⟨⟨E.ext.trans (Heap.ext_alloc _ _), Nat.lt_succ_self _, Or.inr E.ext.next⟩, ?_⟩
    have hc : (q2.alloc (.mats (List.replicate n ((q2.cell q1).ms.headD 0)))).2.cell q2.next =
        .mats (List.replicate n ((q2.cell q1).ms.headD 0)) := by rw [Heap.alloc_cell, if_pos rfl]
    show _ = Except.ok (((q2.alloc _).2.cell q2.next).ms)
    rw [hc, E.value]
    rfl
  | many b =>
    have E := b.ensured cpu h (Spec.ArgIn.to (a := b) ha |>.mono hn)
    have H := ensure_held (cpu := cpu) (a := b) ha hn
    simp only [MatRef.instantiate] at e
    split_ifs at e with hl
    simp only [Except.ok.injEq] at e
    rw [e] at E H hl
    refine ⟨H, ?_⟩
    dsimp only at E hl
    rw [E.value] at hl ⊢
    simp only [instantiateMat, MatRef.value, if_pos hl]
  | other => simp [MatRef.instantiate] at e

theorem phaseMap_held {cpu : Bool} {h : Heap} {n0 n : ℕ} {phases : List Phase} {map : Option Arg}
    (ha : ∀ a ∈ map, ArgIn a n0) (hn : n0 ≤ h.next) {k : ArrKind} {r : ℕ} {h' : Heap}
    (e : PolyMem.phaseMapRef cpu h phases map n = .ok (k, r, h')) :
    Held n0 (map.bind (Arg.shared cpu)) h r h' ∧
      instantiatePhase phases (map.map fun a => (a.value h).rs) n = .ok (k, (h'.cell r).rs) := by
  cases map with
  | none =>
    simp only [PolyMem.phaseMapRef] at e
    split_ifs at e with hl
    simp only [Except.ok.injEq, Prod.mk.injEq] at e
    obtain ⟨rfl, e⟩ := e
    obtain ⟨rfl, rfl⟩ := Prod.mk.inj e
    refine ⟨⟨Heap.ext_alloc _ _, Nat.lt_succ_self _, Or.inr (le_refl _)⟩, ?_⟩
    simp only [instantiatePhase, Option.map_none, if_neg hl]
    show _ = Except.ok (ArrKind.numpy, (((h.alloc _).2.cell h.next).rs))
    rw [Heap.alloc_cell, if_pos rfl]
    rfl
  | some a =>
    have ha' := ha a (by simp)
    have E := a.ensured cpu h (ha'.to.mono hn)
    have H := ensure_held (cpu := cpu) (a := a) ha' hn
    simp only [PolyMem.phaseMapRef, Except.ok.injEq, Prod.mk.injEq] at e
    obtain ⟨rfl, e⟩ := e
    rw [e] at E H
    refine ⟨by simpa using H, ?_⟩
    simp only [instantiatePhase, Option.map_some]
    rw [E.value]

theorem MatRef.value_ext {a : MatRef} {h h' : Heap} {n0 : ℕ} (ha : MatIn a n0) (hn : n0 ≤ h.next) (e : Heap.Ext h h') :
    a.value h' = a.value h := by
  cases a with
  | one b => simp only [MatRef.value, Arg.value_ext (Spec.ArgIn.to (a := b) ha |>.mono hn) e]
  | many b => simp only [MatRef.value, Arg.value_ext (Spec.ArgIn.to (a := b) ha |>.mono hn) e]
  | other => rfl

/-- what building a polycrystal does to the memory -/
theorem PolyMem.new_ok {x : Xfab} {cpu : Bool} {n0 : ℕ} {h1 : Heap} {M : MeshObj} {U S : MatRef} {phases : PhasesArg}
    {map : Option Arg} {p : PolyMem} {h2 : Heap} (hn : n0 ≤ h1.next) (hU : MatIn U n0) (hS : MatIn S n0)
    (hm : ∀ a ∈ map, ArgIn a n0) (oM : M.Ok h1) (lM : ∀ l ∈ M.locs, n0 ≤ l)
    (e : PolyMem.new x cpu h1 M U S phases map = .ok (p, h2)) :
    Polycrystal.new x (M.view h1) (U.value h1) (S.value h1) phases (map.map fun a => (a.value h1).rs) =
        .ok (p.view h2) ∧
      Heap.Ext h1 h2 ∧
      MemInv n0 (fun l => U.shared cpu = some l ∨ S.shared cpu = some l ∨ map.bind (Arg.shared cpu) = some l)
        ⟨h2, M, p⟩ ∧
      (∀ l, U.shared cpu = some l → p.orientationLab = l) ∧ (∀ l, S.shared cpu = some l → p.strainLab = l) ∧
      (∀ l, map.bind (Arg.shared cpu) = some l → p.phaseMap = l) ∧
      (S.shared cpu = some p.strainLab ∨ n0 ≤ p.strainLab) ∧
      (map.bind (Arg.shared cpu) = some p.phaseMap ∨ n0 ≤ p.phaseMap) ∧
      n0 ≤ p.orientationSample ∧ n0 ≤ p.strainSample := by
  unfold PolyMem.new at e
  dsimp only at e
  cases eU : U.instantiate cpu h1 M.enod.length with
  | error er => rw [eU] at e; simp at e
  | ok q =>
  obtain ⟨ru, ha⟩ := q
  rw [eU] at e
  dsimp only at e
  obtain ⟨HU, vU⟩ := instantiate_held hU hn eU
  have n1 := HU.ext.next
  cases eS : S.instantiate cpu ha M.enod.length with
  | error er => rw [eS] at e; simp at e
  | ok q =>
  obtain ⟨rs, hb⟩ := q
  rw [eS] at e
  dsimp only at e
  obtain ⟨HS, vS⟩ := instantiate_held hS (le_trans hn n1) eS
  have n2 := HS.ext.next
  rw [MatRef.value_ext hS hn HU.ext] at vS
  cases eM : PolyMem.phaseMapRef cpu hb phases.toList map M.enod.length with
  | error er => rw [eM] at e; simp at e
  | ok q =>
  obtain ⟨k, rm, hc⟩ := q
  rw [eM] at e
  dsimp only at e
  obtain ⟨HM, vM⟩ := phaseMap_held hm (by omega) eM
  have n3 := HM.ext.next
  have xs : Heap.Ext h1 hb := HU.ext.trans HS.ext
  have vm : (map.map fun a => (a.value hb).rs) = map.map fun a => (a.value h1).rs := by
    cases map with
    | none => rfl
    | some a => simp only [Option.map_some, Arg.value_ext ((hm a (by simp)).to.mono hn) xs]
  rw [vm] at vM
  have cU : hc.cell ru = ha.cell ru := (HS.ext.trans HM.ext).cell _ HU.lt
  have cS : hc.cell rs = hb.cell rs := HM.ext.cell _ HS.lt
  rw [cU, cS] at e
  cases eB : instantiateEB x M.enod.length (ha.cell ru).ms (hb.cell rs).ms phases.toList (hc.cell rm).rs with
  | error er => rw [eB] at e; simp at e
  | ok B =>
  rw [eB] at e
  dsimp only at e
  have xc : Heap.Ext h1 hc := xs.trans HM.ext
  have oMc : M.Ok hc := oM.mono xc.next
  obtain ⟨okL, xL, loL, vL⟩ := MeshObj.deepcopy_step oMc
  generalize M.deepcopy hc = q at okL xL loL vL e
  obtain ⟨L, hd⟩ := q
  dsimp only at okL xL loL vL e
  have n4 := xL.next
  have oMd : M.Ok hd := oMc.mono xL.next
  obtain ⟨okA, xA, loA, vA⟩ := MeshObj.deepcopy_step oMd
  generalize M.deepcopy hd = q at okA xA loA vA e
  obtain ⟨A, he⟩ := q
  dsimp only at okA xA loA vA e
  have n5 := xA.next
  simp only [Except.ok.injEq, Prod.mk.injEq] at e
  obtain ⟨rfl, rfl⟩ := e
  have lU := HU.lt; have lS := HS.lt; have lMm := HM.lt
  set h5 := (he.alloc (he.cell rs)).2 with h5d
  have x5 : Heap.Ext he h5 := Heap.ext_alloc _ _
  set h6 := (h5.alloc (h5.cell ru)).2 with h6d
  have x6 : Heap.Ext h5 h6 := Heap.ext_alloc _ _
  have n5' : h5.next = he.next + 1 := rfl
  have n6 : h6.next = he.next + 2 := rfl
  have xce : Heap.Ext hc h6 := (xL.trans xA).trans (x5.trans x6)
  have xM : Heap.Ext h1 h6 := xc.trans xce
  have g5 : h5.cell he.next = he.cell rs := by rw [h5d, Heap.alloc_cell, if_pos rfl]
  have g6 : h6.cell h5.next = h5.cell ru := by rw [h6d, Heap.alloc_cell, if_pos rfl]
  have u6 : h6.cell ru = ha.cell ru := (xce.cell ru (by omega)).trans cU
  have s6 : h6.cell rs = hb.cell rs := (xce.cell rs (by omega)).trans cS
  have m6 : h6.cell rm = hc.cell rm := xce.cell rm (by omega)
  have uS : h6.cell h5.next = ha.cell ru := by
    rw [g6, ← cU]
    exact ((xL.trans xA).trans x5).cell ru (by omega)
  have sS : h6.cell he.next = hb.cell rs := by
    rw [x6.cell _ (by omega), g5, ← cS]
    exact (xL.trans xA).cell rs (by omega)
  have kL : ∀ l ∈ L.locs, h6.cell l = hd.cell l := fun l hl =>
    (xA.trans (x5.trans x6)).cell l (okL.lt l hl)
  have kA : ∀ l ∈ A.locs, h6.cell l = he.cell l := fun l hl => (x5.trans x6).cell l (okA.lt l hl)
  have vMc : M.view hc = M.view h1 := MeshObj.view_congr fun l hl => xc.cell l (oM.lt l hl)
  have vMd : M.view hd = M.view h1 :=
    (MeshObj.view_congr fun l hl => xL.cell l (oMc.lt l hl)).trans vMc
  refine ⟨?_, xM, ⟨?_, oM.mono xM.next, okL.mono ?_, okA.mono ?_, ?_, ?_, ?_, ?_, ?_⟩, ?_, ?_, ?_, ?_, ?_, ?_, ?_⟩
  · simp only [Polycrystal.new]
    have e1 : (M.view h1).enod.length = M.enod.length := rfl
    rw [e1, vU, vS]
    dsimp only
    rw [vM]
    dsimp only
    rw [eB]
    simp only [PolyMem.view, Heap.alloc_fst, u6, s6, m6, uS, sS, MeshObj.view_congr kL, MeshObj.view_congr kA, vL, vA,
      vMc, vMd]
    rfl
  · show n0 ≤ h6.next; omega
  · show hd.next ≤ h6.next; omega
  · show he.next ≤ h6.next; omega
  · rintro l - (hl | hl | hl)
    · exact lM l hl
    · have := loL l hl; omega
    · have := loA l hl; omega
  · intro l hl hc'
    have := oM.lt l hl; have := loL l hc'; omega
  · intro l hl hc'
    have := oM.lt l hl; have := loA l hc'; omega
  · intro l hl hc'
    have := okL.lt l hl; have := loA l hc'; omega
  · intro l hl
    have main : l < h6.next ∧ ((l < n0 ∧ (U.shared cpu = some l ∨ S.shared cpu = some l ∨
        map.bind (Arg.shared cpu) = some l)) ∨ (h1.next ≤ l ∧ l < hc.next) ∨ he.next ≤ l) := by
      rw [PolyMem.mem_others] at hl
      dsimp only at hl
      rcases hl with rfl | rfl | rfl | rfl | rfl
      · refine ⟨by omega, ?_⟩
        rcases HU.src with h | h
        · exact Or.inl ⟨h.2, Or.inl h.1⟩
        · right; left; omega
      · exact ⟨by show h5.next < h6.next; omega, Or.inr (Or.inr (by show he.next ≤ h5.next; omega))⟩
      · refine ⟨by omega, ?_⟩
        rcases HS.src with h | h
        · exact Or.inl ⟨h.2, Or.inr (Or.inl h.1)⟩
        · right; left; omega
      · exact ⟨by show he.next < h6.next; omega, Or.inr (Or.inr (le_refl _))⟩
      · refine ⟨by omega, ?_⟩
        rcases HM.src with h | h
        · exact Or.inl ⟨h.2, Or.inr (Or.inr h.1)⟩
        · right; left; omega
    refine ⟨main.1, fun hk => ?_, fun hk => ?_, fun hk => ?_, fun hk => ?_⟩
    · have a1 := oM.lt l hk
      have a2 := lM l hk
      have := main.2; omega
    · have a1 := okL.lt l hk
      have a2 := loL l hk
      have := main.2; omega
    · have a1 := okA.lt l hk
      have a2 := loA l hk
      have := main.2; omega
    · rcases main.2 with h | h | h
      · exact h.2
      · omega
      · omega
  · intro l hl
    rcases HU.src with h | h
    · rw [h.1] at hl; exact Option.some.inj hl
    · exact absurd h (by
        cases U with
        | one b => simp [MatRef.shared] at hl
        | other => simp [MatRef.shared] at hl
        | many b =>
          have E := b.ensured cpu h1 (Spec.ArgIn.to (a := b) hU |>.mono hn)
          simp only [MatRef.instantiate] at eU
          split_ifs at eU with hl'
          simp only [Except.ok.injEq] at eU
          rw [eU] at E
          have := E.old l hl
          have := (Spec.ArgIn.to (a := b) hU) l (shared_addr hl)
          dsimp only at *
          omega)
  · intro l hl
    rcases HS.src with h | h
    · rw [h.1] at hl; exact Option.some.inj hl
    · exact absurd h (by
        cases S with
        | one b => simp [MatRef.shared] at hl
        | other => simp [MatRef.shared] at hl
        | many b =>
          have E := b.ensured cpu ha (Spec.ArgIn.to (a := b) hS |>.mono (le_trans hn n1))
          simp only [MatRef.instantiate] at eS
          split_ifs at eS with hl'
          simp only [Except.ok.injEq] at eS
          rw [eS] at E
          have := E.old l hl
          have := (Spec.ArgIn.to (a := b) hS) l (shared_addr hl)
          dsimp only at *
          omega)
  · intro l hl
    rcases HM.src with h | h
    · rw [h.1] at hl; exact Option.some.inj hl
    · exact absurd h (by
        cases map with
        | none => simp at hl
        | some a =>
          have hin := hm a (by simp)
          have E := a.ensured cpu hb (hin.to.mono (by omega))
          simp only [PolyMem.phaseMapRef, Except.ok.injEq, Prod.mk.injEq] at eM
          rw [eM.2] at E
          simp only [Option.bind_some] at hl
          have := E.old l hl
          have := hin.to l (shared_addr hl)
          dsimp only at *
          omega)
  · rcases HS.src with h | h
    · exact Or.inl h.1
    · right; dsimp only; omega
  · rcases HM.src with h | h
    · exact Or.inl h.1
    · right; dsimp only; omega
  · show n0 ≤ h5.next; omega
  · show n0 ≤ he.next; omega

/-- errors agree too -/
theorem instantiate_error {cpu : Bool} {h : Heap} {n0 n : ℕ} {a : MatRef} (ha : MatIn a n0) (hn : n0 ≤ h.next)
    {er : PyErr} (e : a.instantiate cpu h n = .error er) : instantiateMat (a.value h) n = .error er := by
  cases a with
  | one b => simp [MatRef.instantiate] at e
  | many b =>
    have E := b.ensured cpu h (Spec.ArgIn.to (a := b) ha |>.mono hn)
    simp only [MatRef.instantiate] at e
    split_ifs at e with hl
    rw [E.value] at hl
    simp only [instantiateMat, MatRef.value, if_neg hl]
    simpa using e
  | other => simpa [MatRef.instantiate, instantiateMat, MatRef.value] using e

theorem PolyMem.new_error {x : Xfab} {cpu : Bool} {n0 : ℕ} {h1 : Heap} {M : MeshObj} {U S : MatRef} {phases : PhasesArg}
    {map : Option Arg} {er : PyErr} (hn : n0 ≤ h1.next) (hU : MatIn U n0) (hS : MatIn S n0)
    (hm : ∀ a ∈ map, ArgIn a n0) (e : PolyMem.new x cpu h1 M U S phases map = .error er) :
    Polycrystal.new x (M.view h1) (U.value h1) (S.value h1) phases (map.map fun a => (a.value h1).rs) = .error er := by
  have e1 : (M.view h1).enod.length = M.enod.length := rfl
  unfold PolyMem.new at e
  unfold Polycrystal.new
  dsimp only at e ⊢
  rw [e1]
  cases eU : U.instantiate cpu h1 M.enod.length with
  | error er' =>
    rw [eU] at e
    rw [instantiate_error hU hn eU]
    exact congrArg _ (Except.error.inj e)
  | ok q =>
  obtain ⟨ru, ha⟩ := q
  rw [eU] at e
  dsimp only at e
  obtain ⟨HU, vU⟩ := instantiate_held hU hn eU
  have n1 := HU.ext.next
  rw [vU]
  dsimp only
  cases eS : S.instantiate cpu ha M.enod.length with
  | error er' =>
    rw [eS] at e
    have := instantiate_error hS (le_trans hn n1) eS
    rw [MatRef.value_ext hS hn HU.ext] at this
    rw [this]
    exact congrArg _ (Except.error.inj e)
  | ok q =>
  obtain ⟨rs, hb⟩ := q
  rw [eS] at e
  dsimp only at e
  obtain ⟨HS, vS⟩ := instantiate_held hS (le_trans hn n1) eS
  have n2 := HS.ext.next
  rw [MatRef.value_ext hS hn HU.ext] at vS
  rw [vS]
  dsimp only
  cases eM : PolyMem.phaseMapRef cpu hb phases.toList map M.enod.length with
  | error er' =>
    rw [eM] at e
    cases map with
    | none =>
      simp only [PolyMem.phaseMapRef] at eM
      split_ifs at eM with hl
      simp only [instantiatePhase, Option.map_none, if_pos hl]
      simp only [Except.error.injEq] at eM
      rw [eM]
      exact congrArg _ (Except.error.inj e)
    | some a => simp [PolyMem.phaseMapRef] at eM
  | ok q =>
  obtain ⟨k, rm, hc⟩ := q
  rw [eM] at e
  dsimp only at e
  obtain ⟨HM, vM⟩ := phaseMap_held hm (by omega) eM
  have vm : (map.map fun a => (a.value hb).rs) = map.map fun a => (a.value h1).rs := by
    cases map with
    | none => rfl
    | some a => simp only [Option.map_some, Arg.value_ext ((hm a (by simp)).to.mono hn) (HU.ext.trans HS.ext)]
  rw [vm] at vM
  rw [vM]
  dsimp only
  have cU : hc.cell ru = ha.cell ru := (HS.ext.trans HM.ext).cell _ HU.lt
  have cS : hc.cell rs = hb.cell rs := HM.ext.cell _ HS.lt
  rw [cU, cS] at e
  cases eB : instantiateEB x M.enod.length (ha.cell ru).ms (hb.cell rs).ms phases.toList (hc.cell rm).rs with
  | error er' =>
    rw [eB] at e
    exact congrArg _ (Except.error.inj e)
  | ok B =>
    rw [eB] at e
    simp at e

theorem MeshObj.new_error {cpu : Bool} {h : Heap} {coord : Arg} {enod : List (Q4 ℕ)} {er : PyErr}
    (hc : coord.In h.next) (e : MeshObj.new cpu h coord enod = .error er) :
    TetraMesh.new (coord.value h).pts enod = .error er := by
  unfold MeshObj.new at e
  have E := coord.ensured cpu h hc
  generalize coord.ensureTorch cpu h = c at E e
  obtain ⟨r, h'⟩ := c
  dsimp only at E e
  have E2 := (Arg.numpy h'.next true).ensured cpu (h'.alloc (h'.cell r)).2 (fun l hl => by
    simp only [Arg.addr, Option.some.injEq] at hl
    subst hl
    exact Nat.lt_succ_self _)
  have e2 : (h'.alloc (h'.cell r)).2.cell h'.next = coord.value h := by
    rw [Heap.alloc_cell, if_pos rfl, E.value]
  have e3 := E2.value
  rw [Arg.value, e2] at e3
  have e4 : (Arg.tensor r true true).ensureNumpy h' = h'.alloc (h'.cell r) := rfl
  rw [e4, Heap.alloc_fst, e3] at e
  cases hT : TetraMesh.new (coord.value h).pts enod with
  | error er' => rw [hT] at e; exact congrArg _ (Except.error.inj e)
  | ok T => rw [hT] at e; simp at e

end XRD
