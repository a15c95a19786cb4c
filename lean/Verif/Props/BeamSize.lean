import Verif.Props.Scene
import Verif.Props.Sphere
import Verif.Props.Covariance

/-! Properties C78 and C79: how the peaks depend on the size of the beam. -/

namespace XRD.Spec
open XRD
/-- `p` is strictly inside all half-spaces of the beam -/
def InBeam (b : Beam) (p : V3) : Prop := ∀ h ∈ b.halfspaces, h.n.dot p + h.d < 0
/-- two beams built with the same direction, wavelength and polarization, over possibly different vertices -/
def SameRay (b b' : Beam) : Prop :=
  ∃ (q q' : Qhull) (vs vs' : List V3) (dir : V3) (wl : ℝ) (pol : V3),
    Beam.new q vs dir wl pol = .ok b ∧ Beam.new q' vs' dir wl pol = .ok b'
/-- the source point recorded in the row is strictly inside the beam -/
def SourceIn (b : Beam) (columns : List String) (row : List Fl) : Prop :=
  ∃ p, HasV columns row "Source_x" "Source_y" "Source_z" p ∧ InBeam b p
end XRD.Spec

namespace XRD
open V3 M3 Fl Spec
open scoped Classical

theorem sameRay_eqs {b b' : Beam} (h : SameRay b b') :
    b.waveVector = b'.waveVector ∧ b.wavelength = b'.wavelength ∧ b.polarization = b'.polarization := by
  obtain ⟨q, q', vs, vs', dir, wl, pol, h1, h2⟩ := h
  unfold Beam.new at h1 h2
  dsimp only at h1 h2
  split_ifs at h1 h2
  obtain rfl := Except.ok.inj h1
  obtain rfl := Except.ok.inj h2
  exact ⟨rfl, rfl, rfl⟩

theorem computePeaks_ray {c : Crystal} {b b' : Beam} {m : Motion} (h : SameRay b b') :
    computePeaks c b m = computePeaks c b' m := by
  obtain ⟨h1, h2, h3⟩ := sameRay_eqs h
  have e1 : allPhaseRows c b m = allPhaseRows c b' m := by
    unfold allPhaseRows phaseRows
    simp only [h1]
  have e2 : extendRow c b m = extendRow c b' m := by
    funext r
    unfold extendRow
    simp only [h1, h2, h3]
  unfold computePeaks
  rw [e1, e2]

theorem diffract_ray {x : Xfab} {p : Polycrystal} {b b' : Beam} {m : Motion} {lo hi : ℝ} (h : SameRay b b') :
    (p.diffract x b m lo hi none).map Prod.snd = (p.diffract x b' m lo hi none).map Prod.snd ∧
    ∀ {d p'}, p.diffract x b m lo hi none = .ok (d, p') → ∃ rows, d.columns = peakColumns ∧
      computePeaks p'.crystal b m = .ok rows ∧
      d.peaks.map List.dropLast = rows.filter (fun row => decide (SourceIn b peakColumns row)) := by
  constructor
  · unfold Polycrystal.diffract Polycrystal.limits diffractCore
    dsimp only
    rw [(sameRay_eqs h).2.1, computePeaks_ray h]
    cases computePeaks (p.setupPhases x b'.wavelength lo hi).crystal b' m <;> rfl
  · intro d p' hd
    obtain ⟨lo', hi', -, -, hcore⟩ := Polycrystal.diffract_ok hd
    obtain ⟨computed, hc, hf, -⟩ := C39_diffract_filters_and_numbers _ _ _ _ hcore
    have hcol := diffract_columns hcore
    refine ⟨computed, hcol, hc, ?_⟩
    rw [hf]
    apply List.filter_congr
    intro r _
    rw [hcol]
    exact decide_eq_decide.2 Iff.rfl

/-- C78: with a smaller beam of the same direction, wavelength and polarization, `diffract` succeeds or fails in the same
way, leaves the polycrystal in the same state, and reports exactly those rows of the larger beam's table, in order, whose
source point is inside the smaller beam (only the running number in the last column differs). -/
theorem C78_smaller_beam_filters {b b' : Beam} (hray : SameRay b b') (hsub : ∀ s, InBeam b s → InBeam b' s)
    (x : Xfab) (p : Polycrystal) (m : Motion) (lo hi : ℝ) :
    (p.diffract x b m lo hi none).map Prod.snd = (p.diffract x b' m lo hi none).map Prod.snd ∧
    ∀ d d' p1 p2, p.diffract x b m lo hi none = .ok (d, p1) → p.diffract x b' m lo hi none = .ok (d', p2) →
      d.columns = d'.columns ∧ d.peaks.map List.dropLast =
        (d'.peaks.map List.dropLast).filter fun row => decide (SourceIn b d'.columns row) := by
  obtain ⟨e, f⟩ := diffract_ray (x := x) (p := p) (m := m) (lo := lo) (hi := hi) hray
  have hray' : SameRay b' b := by
    obtain ⟨q, q', vs, vs', dir, wl, pol, h1, h2⟩ := hray
    exact ⟨q', q, vs', vs, dir, wl, pol, h2, h1⟩
  obtain ⟨-, f'⟩ := diffract_ray (x := x) (p := p) (m := m) (lo := lo) (hi := hi) hray'
  refine ⟨e, ?_⟩
  intro d d' p1 p2 h1 h2
  have hp : p1 = p2 := by rw [h1, h2] at e; exact Except.ok.inj e
  subst hp
  obtain ⟨rows, c1, r1, k1⟩ := f h1
  obtain ⟨rows', c2, r2, k2⟩ := f' h2
  rw [computePeaks_ray hray, r2] at r1
  obtain rfl := Except.ok.inj r1
  refine ⟨c1.trans c2.symm, ?_⟩
  rw [k1, k2, c2, List.filter_filter]
  apply List.filter_congr
  intro r _
  rw [Bool.eq_iff_iff]
  simp only [decide_eq_true_eq, Bool.and_eq_true]
  constructor
  · rintro ⟨s, hs, hin⟩
    exact ⟨⟨s, hs, hin⟩, s, hs, hsub s hin⟩
  · exact And.left

/-- C78: tiling a beam.  Two smaller beams with disjoint insides give together, up to order and running number, exactly the
peaks of the large beam, except the peaks whose source point is inside neither of them (if the two tile the large beam, those
are the ones with the source point on the common boundary). -/
theorem C78_beam_tiles {b b1 b2 : Beam} (h1 : SameRay b1 b) (h2 : SameRay b2 b)
    (hsub1 : ∀ s, InBeam b1 s → InBeam b s) (hsub2 : ∀ s, InBeam b2 s → InBeam b s) (hdis : ∀ s, ¬ (InBeam b1 s ∧ InBeam b2 s))
    (x : Xfab) (p : Polycrystal) (m : Motion) (lo hi : ℝ) (d d1 d2 : PeaksDict) (p0 p1 p2 : Polycrystal)
    (e0 : p.diffract x b m lo hi none = .ok (d, p0)) (e1 : p.diffract x b1 m lo hi none = .ok (d1, p1))
    (e2 : p.diffract x b2 m lo hi none = .ok (d2, p2)) :
    ∃ lost : List (List Fl), (d.peaks.map List.dropLast).Perm
        (d1.peaks.map List.dropLast ++ (d2.peaks.map List.dropLast ++ lost)) ∧
      ∀ row ∈ lost, ¬ SourceIn b1 d.columns row ∧ ¬ SourceIn b2 d.columns row := by
  have k1 := ((C78_smaller_beam_filters h1 hsub1 x p m lo hi).2 _ _ _ _ e1 e0).2
  have k2 := ((C78_smaller_beam_filters h2 hsub2 x p m lo hi).2 _ _ _ _ e2 e0).2
  rw [k1, k2]
  have hpt : ∀ {r : List Fl} {s s' : V3}, d.columns = peakColumns → HasV d.columns r "Source_x" "Source_y" "Source_z" s →
      HasV d.columns r "Source_x" "Source_y" "Source_z" s' → s = s' := by
    intro r s s' hcol a a'
    rw [hcol] at a a'
    have key : ∀ (nm : String) (i j : ℕ), peakColumns[i]? = some nm → peakColumns[j]? = some nm → i = j := by
      intro nm i j h0 h1
      obtain ⟨b0, e0⟩ := List.getElem?_eq_some_iff.mp h0
      obtain ⟨b1, e1⟩ := List.getElem?_eq_some_iff.mp h1
      exact ((by decide : peakColumns.Nodup).getElem_inj_iff).mp (by rw [e0, e1])
    obtain ⟨⟨i1, n1, v1⟩, ⟨i2, n2, v2⟩, ⟨i3, n3, v3⟩⟩ := a
    obtain ⟨⟨j1, n1', v1'⟩, ⟨j2, n2', v2'⟩, ⟨j3, n3', v3'⟩⟩ := a'
    obtain rfl := key _ _ _ n1 n1'
    obtain rfl := key _ _ _ n2 n2'
    obtain rfl := key _ _ _ n3 n3'
    rw [v1] at v1'; rw [v2] at v2'; rw [v3] at v3'
    ext
    · exact Fl.fin.inj (Option.some.inj v1')
    · exact Fl.fin.inj (Option.some.inj v2')
    · exact Fl.fin.inj (Option.some.inj v3')
  have hcol : d.columns = peakColumns := by
    obtain ⟨_, _, -, -, hcore⟩ := Polycrystal.diffract_ok e0
    exact diffract_columns hcore
  refine ⟨((d.peaks.map List.dropLast).filter (fun row => !decide (SourceIn b1 d.columns row))).filter
    (fun row => !decide (SourceIn b2 d.columns row)), ?_, ?_⟩
  · have e : (d.peaks.map List.dropLast).filter (fun row => decide (SourceIn b2 d.columns row)) =
        ((d.peaks.map List.dropLast).filter (fun row => !decide (SourceIn b1 d.columns row))).filter
          (fun row => decide (SourceIn b2 d.columns row)) := by
      rw [List.filter_filter]
      apply List.filter_congr
      intro r hr
      rw [Bool.eq_iff_iff]
      simp only [decide_eq_true_eq, Bool.and_eq_true, Bool.not_eq_true', decide_eq_false_iff_not]
      refine ⟨fun h => ⟨h, ?_⟩, And.left⟩
      obtain ⟨s', hs', hb'⟩ := h
      rintro ⟨s'', hs'', hb''⟩
      rw [hpt hcol hs' hs''] at hb'
      exact hdis _ ⟨hb'', hb'⟩
    rw [e]
    exact (List.filter_append_perm _ _).symm.trans ((List.Perm.refl _).append (List.filter_append_perm _ _).symm)
  · intro row hrow
    simp only [List.mem_filter, Bool.not_eq_true', decide_eq_false_iff_not] at hrow
    exact ⟨hrow.1.2, hrow.2⟩

end XRD
