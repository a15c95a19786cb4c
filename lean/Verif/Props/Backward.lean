import Verif.Props.SplitFails

/-! Property C81: scanning backwards. -/

namespace XRD.Spec
open XRD V3

/-- `row2` describes the event of `row` in the scan run backwards, with the crystal turned by `turn`: time `1 - t`, undeformed-frame
vector `G0` turned with the crystal, every other column except the running number identical. -/
def SameEventBack (cols : List String) (turn : V3 → V3) (row row2 : List Fl) : Prop :=
  (∃ t s, Has cols row "diffraction_times" (.fin t) ∧ Has cols row2 "diffraction_times" (.fin s) ∧ t + s = 1) ∧
  (∃ g, HasV cols row "G0_x" "G0_y" "G0_z" g ∧ HasV cols row2 "G0_x" "G0_y" "G0_z" (turn g)) ∧
  ∀ name, name ∉ ["diffraction_times", "G0_x", "G0_y", "G0_z", "peak_index"] → ∀ v, Has cols row2 name v ↔ Has cols row name v
end XRD.Spec

namespace XRD
open V3 M3 Fl Spec
open scoped Classical

/-- the Lorentz factor does not depend on the sense of rotation -/
theorem lorentz_neg {k : V3} (hk : k ≠ 0) (K a : V3) : lorentz k K (-a) = lorentz k K a := by
  rw [lorentz_eq hk, lorentz_eq hk]
  dsimp only
  set o : V3 := K - (k.dot K / k.norm ^ 2) • k with ho
  have hd : (-a).dot o = -(a.dot o) := by simp only [V3.dot, V3.neg_x, V3.neg_y, V3.neg_z]; ring
  rw [hd]
  by_cases h0 : o.norm = 0
  · have : o = 0 := V3.norm_eq_zero.mp h0
    have hz : a.dot o = 0 := by rw [this]; simp [V3.dot]
    rw [hz, neg_zero]
  · rw [div_fin_ne h0, div_fin_ne h0, neg_div]
    set x := a.dot o / o.norm with hx
    by_cases hr : -1 ≤ x ∧ x ≤ 1
    · rw [arccos_fin hr.1 hr.2, arccos_fin (by linarith) (by linarith), Real.arccos_neg]
      set e := Real.arccos x
      have he0 : 0 ≤ e := Real.arccos_nonneg x
      have he1 : e ≤ Real.pi := Real.arccos_le_pi x
      have hp := Real.pi_pos
      simp only [rad2deg, mul_fin, sin_fin, abs_fin, div_fin_ne hp.ne', Real.sin_pi_sub]
      have q : |(Real.pi - e) * (180 / Real.pi)| = 180 - |e * (180 / Real.pi)| := by
        rw [abs_of_nonneg (by apply mul_nonneg <;> [linarith; positivity]), abs_of_nonneg (by positivity)]
        field_simp
      rw [q]
      congr 1
      simp only [lt_fin, eq_iff_iff]
      constructor
      · rintro (h | h | h)
        · exact Or.inr (Or.inl (by linarith))
        · exact Or.inl (by linarith)
        · exact Or.inr (Or.inr h)
      · rintro (h | h | h)
        · exact Or.inr (Or.inl (by linarith))
        · exact Or.inl (by linarith)
        · exact Or.inr (Or.inr h)
    · have n1 : Fl.arccos (fin x) = nan := by simp [Fl.arccos, hr]
      have n2 : Fl.arccos (fin (-x)) = nan := by
        have : ¬ (-1 ≤ -x ∧ -x ≤ 1) := fun h => hr ⟨by linarith [h.2], by linarith [h.1]⟩
        simp only [Fl.arccos, if_neg this]
      rw [n1, n2]

section
variable {a T o : V3} {w : ℝ}

theorem rotMat_neg_axis_eq (a : V3) (θ : ℝ) : rotMat (-a) θ = rotMat a (-θ) := by rw [rotMat_neg_axis, rotMat_neg_angle]

theorem back_rotate1 (ha : nsq a = 1) (v : V3) (s : ℝ) :
    (⟨-a, w, -T, o + T⟩ : Motion).rotate1 ((⟨a, w, T, o⟩ : Motion).rotate1 v 1) s = (⟨a, w, T, o⟩ : Motion).rotate1 v (1 - s) := by
  unfold Motion.rotate1
  dsimp only
  rw [rotMat_neg_axis_eq, ← mulVec_mul, rotMat_mul ha]
  congr 2
  ring

theorem back_call1 (ha : nsq a = 1) (v : V3) (s : ℝ) :
    (⟨-a, w, -T, o + T⟩ : Motion).call1 ((⟨a, w, T, o⟩ : Motion).call1 v 1) s = (⟨a, w, T, o⟩ : Motion).call1 v (1 - s) := by
  unfold Motion.call1
  dsimp only
  have e : (rotMat a (w * 1)).mulVec (v - o) + o + (1 : ℝ) • T - (o + T) = (rotMat a (w * 1)).mulVec (v - o) := by
    ext <;> simp
  rw [e, rotMat_neg_axis_eq, ← mulVec_mul, rotMat_mul ha]
  have e2 : -(w * s) + w * 1 = w * (1 - s) := by ring
  rw [e2]
  ext <;> simp <;> ring

theorem rotate_neg (ha : nsq a = 1) (θ : ℝ) (v : V3) : rotate (-a) θ v = rotate a (-θ) v := by
  have hna : nsq (-a) = 1 := by rw [← ha]; simp only [nsq, V3.dot, V3.neg_x, V3.neg_y, V3.neg_z]; ring
  rw [← rotMat_eq_spec ha, ← rotMat_eq_spec hna, rotMat_neg_axis_eq]

theorem sameEventBack {c c' : Crystal} {b : Beam} (hk : b.waveVector ≠ 0) (ha : nsq a = 1) {e i : ℕ} {hkl : HKL} {wt s : ℝ}
    (hG : c'.G0 e hkl = (⟨a, w, T, o⟩ : Motion).rotate1 (c.G0 e hkl) 1)
    (hS : c'.sphereCentroids.getD e 0 = (⟨a, w, T, o⟩ : Motion).call1 (c.sphereCentroids.getD e 0) 1)
    (hV : c'.volumes = c.volumes) (n n2 : Fl) :
    SameEventBack peakColumns (rotate a w)
      (row24 c b ⟨a, w, T, o⟩ e i hkl wt (1 - s) ++ [n])
      (row24 c' b ⟨-a, w, -T, o + T⟩ e i hkl wt s ++ [n2]) := by
  refine ⟨⟨_, s, ⟨6, rfl, rfl⟩, ⟨6, rfl, rfl⟩, by ring⟩, ⟨c.G0 e hkl, ⟨⟨7, rfl, rfl⟩, ⟨8, rfl, rfl⟩, ⟨9, rfl, rfl⟩⟩, ?_⟩, ?_⟩
  · have : rotate a w (c.G0 e hkl) = c'.G0 e hkl := by
      rw [hG, ← rotMat_eq_spec ha]; unfold Motion.rotate1; dsimp only; rw [_root_.mul_one]
    rw [this]
    exact ⟨⟨7, rfl, rfl⟩, ⟨8, rfl, rfl⟩, ⟨9, rfl, rfl⟩⟩
  · intro name hn v
    have e1 := back_rotate1 (T := T) (o := o) (w := w) ha (c.G0 e hkl) s
    have e2 := back_call1 (T := T) (o := o) (w := w) ha (c.sphereCentroids.getD e 0) s
    rw [← hG] at e1
    rw [← hS] at e2
    have key : ∀ j : ℕ, peakColumns[j]? = some name →
        (row24 c' b ⟨-a, w, -T, o + T⟩ e i hkl wt s ++ [n2])[j]? =
        (row24 c b ⟨a, w, T, o⟩ e i hkl wt (1 - s) ++ [n])[j]? := by
      intro j hj
      have hi' : j < 25 := by
        by_contra hc
        rw [List.getElem?_eq_none (by show 25 ≤ j; omega)] at hj
        cases hj
      unfold row24
      dsimp only
      rw [e1, e2, hV, lorentz_neg hk]
      interval_cases j <;> first
        | rfl
        | (exfalso; apply hn; obtain rfl := Option.some.inj hj; decide)
    constructor
    · rintro ⟨i, h1, h2⟩; exact ⟨i, h1, by rw [← key i h1]; exact h2⟩
    · rintro ⟨i, h1, h2⟩; exact ⟨i, h1, by rw [key i h1]; exact h2⟩
end

/-- C81, proved part: a scan run backwards.  The crystal is scanned with the motion `m` of angle `w` and translation `T` about `o`;
and, after being moved by the whole of `m`, with the reversed motion (opposite axis, same angle, opposite translation, rotation centre
carried along).  The tables hold the same events at mirrored times `t ↔ 1 - t`, with the same values in all columns but time, `G0` and
running number; provided the reflection is not one that would satisfy the Laue condition half a turn after the start of the other
scan.  Missing: those reflections, for which the claim is false (`C81_backward_fails`). -/
theorem C81_backward_partial (x : Xfab) (hx : ∀ h cell sg cif, (x.sfBatch h cell sg cif).length = h.length) (p : Polycrystal)
    (hp : Built p) (hph : ∀ ph ∈ p.phases, ph.Fresh) (b : Beam) (hk : b.waveVector ≠ 0) (a T o : V3) (ha : norm a = 1) (w : ℝ)
    (m m2 : Motion) (hm : Motion.new a w T o = .ok m) (hm2 : Motion.new (-a) w (-T) (o + T) = .ok m2) (lo hi : ℝ)
    (d d2 : PeaksDict) (p' p2' : Polycrystal) (hd : p.diffract x b m lo hi none = .ok (d, p'))
    (hd2 : (p.transform m 1).diffract x b m2 lo hi none = .ok (d2, p2')) :
    d2.columns = d.columns ∧
    (∀ row ∈ d.peaks, ∀ g, HasV d.columns row "G0_x" "G0_y" "G0_z" g → ¬ Elastic b.waveVector (rotate a (w - Real.pi) g) →
      ∃ row2 ∈ d2.peaks, SameEventBack d.columns (rotate a w) row row2) ∧
    (∀ row2 ∈ d2.peaks, ∀ g, HasV d.columns row2 "G0_x" "G0_y" "G0_z" g → ¬ Elastic b.waveVector (rotate a (Real.pi - w) g) →
      ∃ row ∈ d.peaks, SameEventBack d.columns (rotate a w) row row2) := by
  obtain ⟨rfl, hw0, hw1, -⟩ := Motion.new_ok hm
  obtain ⟨rfl, -, -, -⟩ := Motion.new_ok hm2
  have hn : nsq a = 1 := by rw [← V3.norm_sq, ha]; norm_num
  have hna : nsq (-a) = 1 := by rw [← hn]; simp only [nsq, V3.dot, V3.neg_x, V3.neg_y, V3.neg_z]; ring
  obtain ⟨f1, f2, -⟩ := built_facts hp
  obtain ⟨lo', hi', hb, rfl, hc⟩ := Polycrystal.diffract_ok hd
  obtain ⟨lo2, hi2, hb2, rfl, hc2⟩ := Polycrystal.diffract_ok hd2
  have hb := Except.ok.inj hb
  have hb2 := Except.ok.inj hb2
  simp only [Prod.mk.injEq] at hb hb2
  obtain ⟨rfl, rfl⟩ := hb
  obtain ⟨rfl, rfl⟩ := hb2
  rw [diffract_columns hc, diffract_columns hc2]
  refine ⟨rfl, ?_⟩
  have hcons : ∀ ph ∈ (p.setupPhases x b.wavelength lo hi).crystal.phases, ph.Consistent := by
    intro ph h
    obtain ⟨ph0, h0, rfl⟩ := List.mem_map.mp h
    exact Phase.setup_consistent hx (hph _ h0) _ _ _
  set m1 : Motion := ⟨a, w, T, o⟩ with hm1d
  set c := (p.setupPhases x b.wavelength lo hi).crystal with hcd
  set c' := ((p.transform m1 1).setupPhases x b.wavelength lo hi).crystal with hcd'
  have hcons' : ∀ ph ∈ c'.phases, ph.Consistent := hcons
  have hG : ∀ e hkl, c'.G0 e hkl = m1.rotate1 (c.G0 e hkl) 1 := by
    intro e hkl
    have e1 : c'.orientation = c.orientation.map (rotMat m1.axis (m1.angle * 1) * ·) := rfl
    have e2 : c'.eB = c.eB := rfl
    unfold Crystal.G0 Motion.rotate1
    rw [e2, ← turn_getG]
    congr 1
    rw [e1, List.getD_eq_getElem?_getD, List.getD_eq_getElem?_getD, List.getElem?_map]
    cases c.orientation[e]? with
    | none => simp only [Option.map_none, Option.getD_none]; ext <;> simp [vecMul]
    | some U => rfl
  have hS : ∀ e i : ℕ, c.phaseMap[e]? = some (i : ℝ) → i < c.phases.length → c'.sphereCentroids.getD e 0 = m1.call1 (c.sphereCentroids.getD e 0) 1 := by
    intro e i he hi
    have e1 : c'.sphereCentroids = c.sphereCentroids.map (fun q => m1.call1 q 1) := rfl
    have hlt : e < c.sphereCentroids.length := by
      show e < p.meshLab.espherecentroids.length
      rw [f2]
      refine f1 i ?_ e (mem_grainIndices.mpr he)
      simpa [hcd, Polycrystal.setupPhases, Polycrystal.crystal] using hi
    rw [e1, List.getD_eq_getElem?_getD, List.getD_eq_getElem?_getD, List.getElem?_map, List.getElem?_eq_getElem hlt]
    rfl
  have hrefl : ∀ {e i ph n hkl wt}, Reflection c e i ph n hkl wt ↔ Reflection c' e i ph n hkl wt := by
    intro e i ph n hkl wt
    exact ⟨fun h => ⟨h.1, h.2, h.3⟩, fun h => ⟨h.1, h.2, h.3⟩⟩
  have hVol : c'.volumes = c.volumes := rfl
  have hm1r : ∀ v, m1.rotate1 v 1 = rotate a w v := by
    intro v
    rw [← rotMat_eq_spec hn]; unfold Motion.rotate1; dsimp only [m1]; rw [_root_.mul_one]
  constructor
  · intro row hrow g hg hne
    obtain ⟨e, i, ph, n, hkl, wt, t, idx, hr, hf, hcon, rfl⟩ := mem_diffract hcons hc hrow
    obtain rfl := hasV_row24 hg
    obtain ⟨hel, h0, h1⟩ := elastic_of_found hn hw0 hf
    obtain ⟨s, rfl⟩ : ∃ s, t = 1 - s := ⟨1 - t, by ring⟩
    rw [← back_rotate1 hn, ← hm1d, ← hG] at hel
    have hne' : ¬ Elastic b.waveVector (rotate (-a) Real.pi (c'.G0 e hkl)) := by
      rw [hG, hm1r, rotate_neg hn, rotate_rotate hn, show -Real.pi + w = w - Real.pi by ring]; exact hne
    have hf2 := found_of_elastic hna (T := -T) (o := o + T) hw0 hw1 (by linarith) (by linarith) hne' hel
    have hi := (List.getElem?_eq_some_iff.mp hr.phase).1
    have hS' := hS e i hr.inPhase hi
    rw [← back_call1 hn, ← hm1d, ← hS'] at hcon
    obtain ⟨idx2, hrow2⟩ := mem_diffract_of hcons' hc2 (hrefl.mp hr) hf2 hcon
    exact ⟨_, hrow2, sameEventBack hk hn (hG e hkl) hS' hVol _ _⟩
  · intro row hrow g hg hne
    obtain ⟨e, i, ph, n, hkl, wt, s, idx, hr, hf, hcon, rfl⟩ := mem_diffract hcons' hc2 hrow
    obtain rfl := hasV_row24 hg
    obtain ⟨hel, h0, h1⟩ := elastic_of_found hna hw0 hf
    rw [hG, hm1d, back_rotate1 hn] at hel
    have hne' : ¬ Elastic b.waveVector (rotate a Real.pi (c.G0 e hkl)) := by
      rw [hG, hm1r, rotate_rotate hn, sub_add_cancel] at hne; exact hne
    have hf2 := found_of_elastic hn (T := T) (o := o) hw0 hw1 (t := 1 - s) (by linarith) (by linarith) hne' hel
    have hi := (List.getElem?_eq_some_iff.mp hr.phase).1
    have hS' := hS e i hr.inPhase hi
    rw [hS', hm1d, back_call1 hn] at hcon
    obtain ⟨idx2, hrow2⟩ := mem_diffract_of hcons hc (hrefl.mpr hr) hf2 hcon
    exact ⟨_, hrow2, sameEventBack hk hn (hG e hkl) hS' hVol _ _⟩

/-- only what a motion does to points and vectors matters for the peaks -/
theorem diffractCore_motion {c : Crystal} {b : Beam} {m m' : Motion} (ha : m'.axis = m.axis) (hw : m'.angle = m.angle)
    (hc : ∀ v t, m'.call1 v t = m.call1 v t) {d : PeaksDict} (hd : diffractCore c b m = .ok d) :
    ∃ d', diffractCore c b m' = .ok d' ∧ d'.peaks = d.peaks ∧ d'.columns = d.columns := by
  have hr : ∀ v t, m'.rotate1 v t = m.rotate1 v t := by intro v t; unfold Motion.rotate1; rw [ha, hw]
  have h1 : allPhaseRows c b m' = allPhaseRows c b m := by unfold allPhaseRows phaseRows; rw [ha, hw]
  have h2 : extendRow c b m' = extendRow c b m := by
    funext r; unfold extendRow; simp only [hr, hc, ha]
  have h3 : computePeaks c b m' = computePeaks c b m := by unfold computePeaks; rw [h1, h2]
  unfold diffractCore at hd ⊢
  rw [h3]
  cases hp : computePeaks c b m with
  | error e => rw [hp] at hd; cases hd
  | ok rows =>
    rw [hp] at hd
    obtain rfl := Except.ok.inj hd
    exact ⟨_, rfl, rfl, rfl⟩

theorem rotMat_fix {a : V3} (r θ : ℝ) : (rotMat a θ).mulVec (r • a) = r • a := by
  ext <;> simp [rotMat, crossMat, crossMat2, mulVec, V3.dot, vecMul] <;> ring

/-- C81, proved part, in terms of `inverse()`: if the translation of the motion is along its rotation axis (in particular if there is
none), the motion returned by `inverse()` gives the backward scan of the moved crystal: the same events at mirrored times, with the
same exception as in `C81_backward_partial`. -/
theorem C81_inverse_scan_partial (x : Xfab) (hx : ∀ h cell sg cif, (x.sfBatch h cell sg cif).length = h.length) (p : Polycrystal)
    (hp : Built p) (hph : ∀ ph ∈ p.phases, ph.Fresh) (b : Beam) (hk : b.waveVector ≠ 0) (a o : V3) (ha : norm a = 1) (w r : ℝ)
    (m m2 : Motion) (hm : Motion.new a w (r • a) o = .ok m) (hm2 : m.inverse = .ok m2) (lo hi : ℝ)
    (d d2 : PeaksDict) (p' p2' : Polycrystal) (hd : p.diffract x b m lo hi none = .ok (d, p'))
    (hd2 : (p.transform m 1).diffract x b m2 lo hi none = .ok (d2, p2')) :
    d2.columns = d.columns ∧
    (∀ row ∈ d.peaks, ∀ g, HasV d.columns row "G0_x" "G0_y" "G0_z" g → ¬ Elastic b.waveVector (rotate a (w - Real.pi) g) →
      ∃ row2 ∈ d2.peaks, SameEventBack d.columns (rotate a w) row row2) ∧
    (∀ row2 ∈ d2.peaks, ∀ g, HasV d.columns row2 "G0_x" "G0_y" "G0_z" g → ¬ Elastic b.waveVector (rotate a (Real.pi - w) g) →
      ∃ row ∈ d.peaks, SameEventBack d.columns (rotate a w) row row2) := by
  obtain ⟨rfl, hw0, hw1, hax⟩ := Motion.new_ok hm
  unfold Motion.inverse at hm2
  dsimp only at hm2
  obtain ⟨rfl, -, -, hax2⟩ := Motion.new_ok hm2
  obtain ⟨lo2, hi2, hb2, rfl, hc2⟩ := Polycrystal.diffract_ok hd2
  have hb2 := Except.ok.inj hb2
  simp only [Prod.mk.injEq] at hb2
  obtain ⟨rfl, rfl⟩ := hb2
  have hcall : ∀ v t, (⟨-a, w, -(r • a), o + r • a⟩ : Motion).call1 v t = (⟨-a, w, -(r • a), o⟩ : Motion).call1 v t := by
    intro v t
    unfold Motion.call1
    dsimp only
    have e : v - (o + r • a) = v - o - r • a := by abel
    have f : (rotMat (-a) (w * t)).mulVec (r • a) = r • a := by rw [rotMat_neg_axis_eq, rotMat_fix]
    rw [e, mulVec_sub, f]
    abel
  obtain ⟨d3, hd3, e1, e2⟩ := diffractCore_motion (m := ⟨-a, w, -(r • a), o⟩) (m' := ⟨-a, w, -(r • a), o + r • a⟩) rfl rfl hcall hc2
  have hd3' : (p.transform ⟨a, w, r • a, o⟩ 1).diffract x b ⟨-a, w, -(r • a), o + r • a⟩ lo hi none =
      .ok (d3, (p.transform ⟨a, w, r • a, o⟩ 1).setupPhases x b.wavelength lo hi) := by
    unfold Polycrystal.diffract Polycrystal.limits
    dsimp only
    rw [hd3]
  have hm3 : Motion.new (-a) w (-(r • a)) (o + r • a) = .ok ⟨-a, w, -(r • a), o + r • a⟩ := by
    unfold Motion.new
    rw [if_pos ⟨hw1, hw0⟩, if_pos hax2]
  have := C81_backward_partial x hx p hp hph b hk a (r • a) o ha w _ _ hm hm3 lo hi d d3 p' _ hd hd3'
  rw [e1, e2] at this
  exact this

/-- the quarter turn run backwards -/
noncomputable def demoBack : Motion := ⟨-⟨0, 0, 1⟩, Real.pi / 2, -0, 0 + 0⟩

theorem demoBack_new : Motion.new (-⟨0, 0, 1⟩) (Real.pi / 2) (-0) (0 + 0) = .ok demoBack := by
  have hp := Real.pi_pos
  have hax : axisAccepted (-⟨0, 0, 1⟩) := by unfold axisAccepted allclose; rw [V3.norm_neg, norm_ez]; norm_num
  unfold Motion.new; rw [if_pos ⟨by linarith, by linarith⟩, if_pos hax]; rfl

/-- an event at half the rotation angle `arctan s` is found by the backward scan -/
theorem back_found {G : V3} {s : ℝ} (h0 : 0 ≤ s) (h1 : s ≤ 1)
    (hq : (nsq G / 2 - G.x) * s ^ 2 - 2 * G.y * s + (G.x + nsq G / 2) = 0) (hG : G.y + nsq G / 2 ≠ 0) :
    Found demoBeam demoBack (demoZ.rotate1 G 1) (1 - 2 * Real.arctan s / (Real.pi / 2)) := by
  have hp := Real.pi_pos
  have ha : nsq (⟨0, 0, 1⟩ : V3) = 1 := norm_eq_one.mp norm_ez
  have hna : nsq (-⟨0, 0, 1⟩ : V3) = 1 := by rw [← ha]; simp only [nsq, V3.dot, V3.neg_x, V3.neg_y, V3.neg_z]; ring
  obtain ⟨k0, k1⟩ := demo_time h0 h1
  refine found_of_elastic hna (by positivity) (by linarith) (by linarith) (by linarith) ?_ ?_
  · have e : demoZ.rotate1 G 1 = rotate ⟨0, 0, 1⟩ (Real.pi / 2) G := by
      rw [← rotMat_eq_spec ha]; unfold Motion.rotate1 demoZ; dsimp only; rw [_root_.mul_one]
    rw [e, rotate_neg ha, rotate_rotate ha, demo_elastic]
    have e2 : -Real.pi + Real.pi / 2 = -(Real.pi / 2) := by ring
    rw [e2, Real.cos_neg, Real.sin_neg, Real.cos_pi_div_two, Real.sin_pi_div_two]
    intro h; apply hG; linarith
  · have e := back_rotate1 (T := 0) (o := 0) (w := Real.pi / 2) ha G (1 - 2 * Real.arctan s / (Real.pi / 2))
    unfold demoZ
    rw [e]
    have e2 : (⟨⟨0, 0, 1⟩, Real.pi / 2, 0, 0⟩ : Motion).rotate1 G (1 - (1 - 2 * Real.arctan s / (Real.pi / 2))) =
        rotate ⟨0, 0, 1⟩ (2 * Real.arctan s) G := by
      rw [← rotMat_eq_spec ha]; unfold Motion.rotate1; dsimp only
      congr 2
      field_simp
      ring
    rw [e2]
    exact demo_elastic_half G hq

/-- the backward scan of the scene, if both reflections have an event -/
theorem duo_back {B : M3} (h1 : norm (B.mulVec ⟨1, 0, 0⟩) ≤ 2) (h2 : norm (B.mulVec ⟨0, 1, 0⟩) ≤ 2) {s1 s2 : ℝ} {G1 G2 : V3}
    (e1 : getG 1 B ⟨1, 0, 0⟩ = G1) (e2 : getG 1 B ⟨0, 1, 0⟩ = G2)
    (h10 : 0 ≤ s1) (h11 : s1 ≤ 1) (hq1 : (nsq G1 / 2 - G1.x) * s1 ^ 2 - 2 * G1.y * s1 + (G1.x + nsq G1 / 2) = 0)
    (hG1 : G1.y + nsq G1 / 2 ≠ 0)
    (h20 : 0 ≤ s2) (h21 : s2 ≤ 1) (hq2 : (nsq G2 / 2 - G2.x) * s2 ^ 2 - 2 * G2.y * s2 + (G2.x + nsq G2 / 2) = 0)
    (hG2 : G2.y + nsq G2 / 2 ≠ 0) :
    ∃ d p', ((polyOf B).transform demoZ 1).diffract (duoX B) demoBeam demoBack 0 (Real.pi / 2) none = .ok (d, p') ∧ d.peaks ≠ [] := by
  have k1 := back_found h10 h11 hq1 hG1
  have k2 := back_found h20 h21 hq2 hG2
  have g1 : getG (rotMat demoZ.axis (demoZ.angle * 1) * 1) B ⟨1, 0, 0⟩ = demoZ.rotate1 G1 1 := by
    rw [turn_getG, e1]; rfl
  have g2 : getG (rotMat demoZ.axis (demoZ.angle * 1) * 1) B ⟨0, 1, 0⟩ = demoZ.rotate1 G2 1 := by
    rw [turn_getG, e2]; rfl
  rw [← g1] at k1
  rw [← g2] at k2
  have z2 : demoBack.translation = 0 := by show -(0 : V3) = 0; ext <;> simp
  have z3 : demoBack.origin = 0 := by show (0 : V3) + 0 = 0; ext <;> simp
  have z4 : norm demoBack.axis = 1 := by show norm (-⟨0, 0, 1⟩ : V3) = 1; rw [V3.norm_neg, norm_ez]
  obtain ⟨d, hd, idx, hrow⟩ := duo_found _ B (demoZ.call1 (sceneMesh.espherecentroids.getD 0 0) 1)
    (by rw [call1_nsq norm_ez rfl rfl]; exact scene_sphere) ((polyOf B).meshVolumes.getD 0 0) demoBack z4 z2 z3 k1 k2
  refine ⟨d, _, duo_core_first _ (duo_moved h1 h2 (some demoZ)) hd, ?_⟩
  intro h; rw [h] at hrow; cases hrow

/-- C81, what is missing from `C81_backward_partial`: a crystal, beam and motion for which the scan reports no peaks although the
same scan run backwards reports some. -/
theorem C81_backward_fails : ∃ (x : Xfab) (p : Polycrystal) (b : Beam) (a T o : V3) (w : ℝ) (m m2 : Motion) (lo hi : ℝ)
    (d d2 : PeaksDict) (p' p2' : Polycrystal), (∀ h cell sg cif, (x.sfBatch h cell sg cif).length = h.length) ∧ Built p ∧
    (∀ ph ∈ p.phases, ph.Fresh) ∧ b.waveVector ≠ 0 ∧ norm a = 1 ∧ Motion.new a w T o = .ok m ∧
    Motion.new (-a) w (-T) (o + T) = .ok m2 ∧
    p.diffract x b m lo hi none = .ok (d, p') ∧ (p.transform m 1).diffract x b m2 lo hi none = .ok (d2, p2') ∧
    d.peaks = [] ∧ d2.peaks ≠ [] := by
  have h1 : norm (lateB.mulVec ⟨1, 0, 0⟩) ≤ 2 := norm_le_two (by norm_num [lateB, mulVec, nsq, V3.dot])
  have h2 : norm (lateB.mulVec ⟨0, 1, 0⟩) ≤ 2 := norm_le_two (by norm_num [lateB, mulVec, nsq, V3.dot])
  have e1 : getG 1 lateB ⟨1, 0, 0⟩ = ⟨18/25, 24/25, 0⟩ := by
    ext <;> simp [getG, lateB, mulVec, vecMul, V3.dot]
  have e2 : getG 1 lateB ⟨0, 1, 0⟩ = ⟨18/25, 576/625, 168/625⟩ := by
    ext <;> simp [getG, lateB, mulVec, vecMul, V3.dot]
  have q1 : nsq (⟨18/25, 24/25, 0⟩ : V3) = 36/25 := by norm_num [nsq, V3.dot]
  have q2 : nsq (⟨18/25, 576/625, 168/625⟩ : V3) = 36/25 := by norm_num [nsq, V3.dot]
  obtain ⟨d2, p2', hd2, hne⟩ := duo_back h1 h2 (s1 := 3/4) (s2 := 25/32) e1 e2 (by norm_num) (by norm_num) (by rw [q1]; norm_num)
    (by rw [q1]; norm_num) (by norm_num) (by norm_num) (by rw [q2]; norm_num) (by rw [q2]; norm_num)
  obtain ⟨d, hd, hnil⟩ := duo_empty 1 lateB (sceneMesh.espherecentroids.getD 0 0) ((polyOf lateB).meshVolumes.getD 0 0) demoZ
    (whole_not_found (by rw [e1, q1]; norm_num)) (whole_not_found (by rw [e2, q2]; norm_num))
  refine ⟨duoX lateB, polyOf lateB, demoBeam, ⟨0, 0, 1⟩, 0, 0, Real.pi / 2, demoZ, demoBack, 0, Real.pi / 2, d, d2, _, p2',
    by intros; simp [duoX], polyOf_built _, polyOf_fresh _, ?_, norm_ez, demoZ_new, demoBack_new,
    duo_core_first _ (duo_moved h1 h2 none) hd, hd2, hnil, hne⟩
  intro h; have := congrArg V3.x h; simp [demoBeam] at this

/-- C81 is not vacuous: a crystal, beam and motion for which the scan and the backward scan succeed, with a peak to which
`C81_backward_partial` applies. -/
example : ∃ (d d2 : PeaksDict) (p' p2' : Polycrystal), Built (polyOf plainB) ∧ (∀ ph ∈ (polyOf plainB).phases, ph.Fresh) ∧
    (polyOf plainB).diffract (duoX plainB) demoBeam demoZ 0 (Real.pi / 2) none = .ok (d, p') ∧
    ((polyOf plainB).transform demoZ 1).diffract (duoX plainB) demoBeam demoBack 0 (Real.pi / 2) none = .ok (d2, p2') ∧
    d2.peaks ≠ [] ∧ ∃ row ∈ d.peaks, ∃ g, HasV d.columns row "G0_x" "G0_y" "G0_z" g ∧
      ¬ Elastic demoBeam.waveVector (rotate ⟨0, 0, 1⟩ (Real.pi / 2 - Real.pi) g) := by
  have hp := Real.pi_pos
  have h1 : norm (plainB.mulVec ⟨1, 0, 0⟩) ≤ 2 := norm_le_two (by norm_num [plainB, mulVec, nsq, V3.dot])
  have h2 : norm (plainB.mulVec ⟨0, 1, 0⟩) ≤ 2 := norm_le_two (by norm_num [plainB, mulVec, nsq, V3.dot])
  have e1 : getG 1 plainB ⟨1, 0, 0⟩ = ⟨-3/5, 4/5, 1⟩ := by
    ext <;> simp [getG, plainB, mulVec, vecMul, V3.dot]
  have e2 : getG 1 plainB ⟨0, 1, 0⟩ = ⟨-3/5, 4/5, -1⟩ := by
    ext <;> simp [getG, plainB, mulVec, vecMul, V3.dot]
  have q1 : nsq (⟨-3/5, 4/5, 1⟩ : V3) = 2 := by norm_num [nsq, V3.dot]
  have q2 : nsq (⟨-3/5, 4/5, -1⟩ : V3) = 2 := by norm_num [nsq, V3.dot]
  obtain ⟨d2, p2', hd2, hne⟩ := duo_back h1 h2 (s1 := 1/2) (s2 := 1/2) e1 e2 (by norm_num) (by norm_num) (by rw [q1]; norm_num)
    (by rw [q1]; norm_num) (by norm_num) (by norm_num) (by rw [q2]; norm_num) (by rw [q2]; norm_num)
  have k1 : Found demoBeam demoZ (getG 1 plainB ⟨1, 0, 0⟩) (2 * Real.arctan (1/2) / (Real.pi / 2)) :=
    whole_found (by norm_num) (by norm_num) (by rw [e1, q1]; norm_num) (by rw [e1, q1]; norm_num)
  have k2 : Found demoBeam demoZ (getG 1 plainB ⟨0, 1, 0⟩) (2 * Real.arctan (1/2) / (Real.pi / 2)) :=
    whole_found (by norm_num) (by norm_num) (by rw [e2, q2]; norm_num) (by rw [e2, q2]; norm_num)
  obtain ⟨d, hd, idx, hrow⟩ := duo_found 1 plainB (sceneMesh.espherecentroids.getD 0 0) scene_sphere
    ((polyOf plainB).meshVolumes.getD 0 0) demoZ norm_ez rfl rfl k1 k2
  refine ⟨d, d2, _, p2', polyOf_built _, polyOf_fresh _, duo_core_first _ (duo_moved h1 h2 none) hd, hd2, hne, _, hrow,
    ⟨-3/5, 4/5, 1⟩, ?_⟩
  rw [diffract_columns hd]
  refine ⟨⟨⟨7, rfl, ?_⟩, ⟨8, rfl, ?_⟩, ⟨9, rfl, ?_⟩⟩, ?_⟩
  · simp [row24, Crystal.G0, duoCrystal, HKL.toV, e1]
  · simp [row24, Crystal.G0, duoCrystal, HKL.toV, e1]
  · simp [row24, Crystal.G0, duoCrystal, HKL.toV, e1]
  · rw [demo_elastic, show Real.pi / 2 - Real.pi = -(Real.pi / 2) by ring, Real.cos_neg, Real.sin_neg, Real.cos_pi_div_two,
      Real.sin_pi_div_two, q1]
    norm_num

end XRD
