import Verif.Props.Alias2

/-! Concrete cases for C75: the constructions in the hypotheses of its theorems do succeed. -/

namespace XRD
open V3 M3 Spec
open scoped Classical

/-- the caller's arrays in the examples: node coordinates, one orientation, a phase map, and the beam's three arrays -/
noncomputable def scriptHeap : Heap := ⟨6, fun l => match l with
  | 0 => .points sceneCoord
  | 1 => .mats [1]
  | 2 => .reals [0]
  | 3 => .points cubeVertices
  | 4 => .points [⟨1, 0, 0⟩]
  | _ => .points [⟨0, 0, 1⟩]⟩

theorem ok_of_map {α β : Type} {e : Except PyErr α} {f : α → β} {b : β} (h : e.map f = .ok b) :
    ∃ a, e = .ok a ∧ f a = b := by
  cases e with
  | error er => cases h
  | ok a => exact ⟨a, rfl, Except.ok.inj h⟩

/-- a mesh built from a float64 numpy array, and a polycrystal built on it from a float64 numpy orientation array that it
keeps: both constructions succeed -/
theorem script_runs (cpu : Bool) : ∃ mesh h1 p h2, MeshObj.new cpu scriptHeap (.numpy 0 true) [⟨0, 1, 2, 3⟩] = .ok (mesh, h1) ∧
    mesh.view h1 = sceneMesh ∧
    PolyMem.new sceneX cpu h1 mesh (.many (.numpy 1 true)) (.one (.python (.mats [0]))) (.one scenePhase)
      (some (.numpy 2 true)) = .ok (p, h2) ∧ p.view h2 = scenePoly := by
  obtain ⟨c1, c2⟩ := C75_construction_by_value (x := sceneX) (cpu := cpu) (h0 := scriptHeap) (coord := .numpy 0 true)
    (enod := [⟨0, 1, 2, 3⟩]) (by simp [ArgIn, scriptHeap])
  have hv : ((Arg.numpy 0 true).value scriptHeap).pts = sceneCoord := rfl
  rw [hv, sceneMesh_new] at c1
  obtain ⟨⟨mesh, h1⟩, hm, hview⟩ := ok_of_map c1
  have c3 := c2 mesh h1 hm (.many (.numpy 1 true)) (.one (.python (.mats [0]))) (.one scenePhase) (some (.numpy 2 true))
    (by simp [MatIn, ArgIn, scriptHeap]) (by simp [MatIn, ArgIn]) (by simp [ArgIn, scriptHeap])
  dsimp only at hview
  rw [hview] at c3
  have hval : Polycrystal.new sceneX sceneMesh ((MatRef.many (.numpy 1 true)).value scriptHeap)
      ((MatRef.one (.python (.mats [0]))).value scriptHeap) (.one scenePhase)
      ((some (Arg.numpy 2 true)).map fun a => (a.value scriptHeap).rs) = .ok scenePoly := by
    rw [← scenePoly_new]
    rfl
  rw [hval] at c3
  obtain ⟨⟨p, h2⟩, hp, hpv⟩ := ok_of_map c3
  exact ⟨mesh, h1, p, h2, hm, hview, hp, hpv⟩

/-- the hypotheses of `C75_kept_orientation_fails` are met: the orientation array is kept, on a CPU -/
example : MatKeptBy true (.many (.numpy 1 true)) 1 ∧ ¬ MatKeptBy true (.one (.python (.mats [0]))) 1 ∧
    ¬ KeptBy true (.numpy 2 true) 1 := by
  refine ⟨⟨_, rfl, Or.inl ⟨rfl, rfl⟩⟩, ?_, ?_⟩
  · rintro ⟨b, hb, -⟩; cases hb
  · rintro (⟨h, -⟩ | h) <;> cases h

/-- the hypotheses of `C75_beam_owns_its_data` are met: a beam built from three numpy arrays -/
example (cpu : Bool) : ∃ b h1, BeamObj.new cpu ⟨List.length, fun _ => cubeFacets⟩ scriptHeap (.numpy 3 true) (.numpy 4 true)
    (2 * Real.pi) (.numpy 5 true) = .ok (b, h1) := by
  have hp := Real.pi_pos
  have n1 : norm (⟨1, 0, 0⟩ : V3) = 1 := by rw [norm_eq_one]; simp [nsq, V3.dot]
  have n2 : norm (⟨0, 0, 1⟩ : V3) = 1 := by rw [norm_eq_one]; simp [nsq, V3.dot]
  have x1 : ¬ ((⟨1, 0, 0⟩ : V3) = 0 ∨ (⟨0, 0, 1⟩ : V3) = 0) := by
    rintro (h | h)
    · have := congrArg V3.x h; simp at this
    · have := congrArg V3.z h; simp at this
  have hw : (2 * Real.pi) ≠ 0 := by positivity
  cases cpu <;>
    norm_num [BeamObj.new, BeamObj.setVertices, Arg.ensureTorch, scriptHeap, Heap.alloc, Function.update_apply, Cell.vec,
      Cell.pts, n1, n2, hw, x1, allclose, V3.dot]

/-- the hypotheses of the detector theorems are met: three numpy corners -/
example : ∃ d h1, DetObj.new true ⟨3, fun l => .points [if l = 0 then ⟨100, -100, -100⟩ else if l = 1 then ⟨100, 100, -100⟩
    else ⟨100, -100, 100⟩]⟩ (.numpy 0 true) (.numpy 1 true) (.numpy 2 true) .absent (.both 1) 1 1 13 true true true =
    .ok (d, h1) := by
  have hd := imgDet_new 1 1 1 one_pos
  simp only [DetObj.new, Arg.ensureTorch, Bool.and_self, if_true, Cell.vec, Cell.pts, List.headD_cons, one_ne_zero,
    if_false, OfNat.ofNat_ne_zero, OfNat.ofNat_ne_one, hd]
  exact ⟨_, _, rfl⟩

end XRD
