import Verif.Props.Inside

/-! Property C79, exact extent. -/

namespace XRD
open V3 M3 Fl Spec
open scoped Classical

/-- **C79**, exact extent: a peak of element `e` at time `t` that some beam of the same direction, wavelength and polarization shows is
shown by `b` exactly if the moved centre of the element's bounding sphere, not the element, is inside `b`. -/
theorem C79_reported_iff {b b' : Beam} (hray : SameRay b b') (x : Xfab)
    (hx : ∀ h cell sg cif, (x.sfBatch h cell sg cif).length = h.length) (p : Polycrystal) (hph : ∀ ph ∈ p.phases, ph.Fresh) (m : Motion)
    (lo hi : ℝ) (d d' : PeaksDict) (p1 p2 : Polycrystal) (h : p.diffract x b m lo hi none = .ok (d, p1))
    (h' : p.diffract x b' m lo hi none = .ok (d', p2)) (row : List Fl) (hrow : row ∈ d'.peaks) (e : ℕ) (t : ℝ)
    (he : Has d'.columns row "grain_index" (fin e)) (ht : Has d'.columns row "diffraction_times" (fin t))
    (c : V3) (hc : p.meshLab.espherecentroids[e]? = some c) :
    (∃ row' ∈ d.peaks, row'.dropLast = row.dropLast) ↔ InBeam b (m.call1 c t) := by
  obtain ⟨lo', hi', hl, rfl, hcore⟩ := Polycrystal.diffract_ok h
  obtain ⟨lo'', hi'', hl', rfl, hcore'⟩ := Polycrystal.diffract_ok h'
  have hl := Except.ok.inj hl
  have hl' := Except.ok.inj hl'
  simp only [Prod.mk.injEq] at hl hl'
  obtain ⟨rfl, rfl⟩ := hl
  obtain ⟨rfl, rfl⟩ := hl'
  obtain ⟨q1, q2, q3⟩ := sameRay_eqs hray
  have hcons : ∀ ph ∈ (p.setupPhases x b'.wavelength lo hi).crystal.phases, ph.Consistent := by
    intro ph hh
    obtain ⟨ph0, h0, rfl⟩ := List.mem_map.mp hh
    exact Phase.setup_consistent hx (hph _ h0) _ _ _
  obtain ⟨e', i, ph, n, hkl, w, t', idx, hrefl, hfound, -, rfl⟩ := mem_diffract hcons hcore' hrow
  rw [diffract_columns hcore'] at he ht
  rw [q2] at hcore
  have hee : e' = e := by
    have := (has_iff 0 rfl).mp he
    exact_mod_cast Fl.fin.inj (Option.some.inj this)
  have htt : t' = t := Fl.fin.inj (Option.some.inj ((has_iff 6 rfl).mp ht))
  subst hee htt
  have hs : (p.setupPhases x b'.wavelength lo hi).crystal.sphereCentroids.getD e' 0 = c := by
    show p.meshLab.espherecentroids.getD e' 0 = c
    rw [List.getD_eq_getElem?_getD, hc]; rfl
  constructor
  · rintro ⟨row', hr', heq⟩
    obtain ⟨e2, i2, ph2, n2, hkl2, w2, t2, idx2, -, -, hcont, rfl⟩ := mem_diffract hcons hcore hr'
    rw [List.dropLast_concat, List.dropLast_concat] at heq
    have a0 := congrArg (fun l : List Fl => l[0]?) heq
    have a6 := congrArg (fun l : List Fl => l[6]?) heq
    have e0 : e2 = e' := by
      have : (fin (e2 : ℝ)) = fin (e' : ℝ) := Option.some.inj a0
      exact_mod_cast Fl.fin.inj this
    have e6 : t2 = t' := Fl.fin.inj (Option.some.inj a6)
    subst e0 e6
    rw [hs] at hcont
    exact hcont
  · intro hin
    have hf : Found b m ((p.setupPhases x b'.wavelength lo hi).crystal.G0 e' hkl) t' := by
      unfold Found at hfound ⊢
      rw [q1]; exact hfound
    obtain ⟨idx', hr⟩ := mem_diffract_of hcons hcore hrefl hf (by rw [hs]; exact hin)
    refine ⟨_, hr, ?_⟩
    rw [List.dropLast_concat, List.dropLast_concat]
    unfold row24
    rw [q1, q2, q3]

end XRD
