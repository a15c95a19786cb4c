import Verif.Props.Friedel
import Verif.Props.EndToEnd
import Verif.Props.Detector2
import Verif.Props.Exact4
import Verif.Props.Limits

/-! Property C117: the Bragg range can be taken in parts, and a narrower range only drops peaks. -/

namespace XRD.Spec
open XRD

/-- The crystallography library lists the planes of a range of `sin θ / λ` part by part (each plane once, its boundary included in one of
the two parts: xfab takes `sintlmin < stl ≤ sintlmax`), and computes the structure factor of each plane by itself. -/
structure ListsByRange (x : Xfab) : Prop where
  split : ∀ cell sg a c b, a ≤ c → c ≤ b → (x.genhkl cell a b sg).Perm (x.genhkl cell a c sg ++ x.genhkl cell c b sg)
  pointwise : ∀ cell sg cif, ∃ F : HKL → ℝ × ℝ, ∀ l, x.sfBatch l cell sg cif = l.map F

/-- the table without the last column, the running number of the peak -/
def unnumbered (d : PeaksDict) : List (List Fl) := d.peaks.map List.dropLast
end XRD.Spec

namespace XRD
open V3 M3 Fl Spec
open scoped Classical

section
variable {x : Xfab} (hx : ListsByRange x) {wl : ℝ} (hwl : 0 < wl) {lo mid hi : ℝ}
  (h1 : Real.sin lo ≤ Real.sin mid) (h2 : Real.sin mid ≤ Real.sin hi)
include hx hwl h1 h2

theorem range_reflections {ph : Phase} (hf : ph.Fresh) : (reflections (ph.setup x wl lo hi)).Perm
    (reflections (ph.setup x wl lo mid) ++ reflections (ph.setup x wl mid hi)) := by
  have hs := hx.split ph.unitCell ph.sgname _ _ _ (div_le_div_of_nonneg_right h1 hwl.le) (div_le_div_of_nonneg_right h2 hwl.le)
  obtain ⟨cell, sg, cif, mi, sf⟩ := ph
  cases cif with
  | none =>
    have : sf = none := hf rfl
    subst this
    simp only [reflections, Phase.setup]
    rw [← List.map_append]
    exact hs.map _
  | some f =>
    obtain ⟨F, hF⟩ := hx.pointwise cell sg f
    have hz : ∀ l : List HKL, l.zip ((l.map F).map fun F => F.1 ^ 2 + F.2 ^ 2) = l.map fun h => (h, (F h).1 ^ 2 + (F h).2 ^ 2) := by
      intro l
      induction l with
      | nil => rfl
      | cons a l ih => simp only [List.map_cons, List.zip_cons_cons, ih]
    simp only [reflections, Phase.setup, hF, hz]
    rw [← List.map_append]
    exact hs.map _

theorem range_rows {p : Polycrystal} (hp : ∀ ph ∈ p.phases, ph.Fresh) (b : Beam) (m : Motion) :
    (allPhaseRows (p.setupPhases x wl lo hi).crystal b m).Perm
      (allPhaseRows (p.setupPhases x wl lo mid).crystal b m ++ allPhaseRows (p.setupPhases x wl mid hi).crystal b m) := by
  unfold allPhaseRows
  have hl : ∀ lo hi, (p.setupPhases x wl lo hi).crystal.phases.length = p.phases.length := by
    intro lo hi; exact List.length_map ..
  rw [hl, hl, hl]
  refine (List.Perm.flatMap_left _ ?_).trans (List.flatMap_append_perm _ _ _).symm
  intro i hi'
  have hg : ∀ lo hi, (p.setupPhases x wl lo hi).crystal.phases[i]? = (p.phases[i]?).map fun ph => ph.setup x wl lo hi := by
    intro lo hi; exact List.getElem?_map ..
  rw [hg, hg, hg]
  cases hph : p.phases[i]? with
  | none => exact List.Perm.refl _
  | some ph =>
    have hr := range_reflections hx hwl h1 h2 (hp ph (List.mem_of_getElem? hph))
    simp only [Option.map_some]
    have key : ∀ (pick : Fl × Fl → Fl) (e : ℕ), (elemRows pick (p.setupPhases x wl lo hi).crystal b m i (ph.setup x wl lo hi) e).Perm
        (elemRows pick (p.setupPhases x wl lo mid).crystal b m i (ph.setup x wl lo mid) e ++
          elemRows pick (p.setupPhases x wl mid hi).crystal b m i (ph.setup x wl mid hi) e) := by
      intro pick e
      rw [elemRows_planes, elemRows_planes, elemRows_planes]
      have := (hr.filter fun r => decide (r.2 > 1 / 10 ^ 6)).filterMap (planeRow pick (p.setupPhases x wl lo hi).crystal b m i e)
      rw [List.filter_append, List.filterMap_append] at this
      exact this
    have flat : ∀ (pick : Fl × Fl → Fl) (gr : List ℕ), (gr.flatMap (elemRows pick (p.setupPhases x wl lo hi).crystal b m i (ph.setup x wl lo hi))).Perm
        (gr.flatMap (elemRows pick (p.setupPhases x wl lo mid).crystal b m i (ph.setup x wl lo mid)) ++
          gr.flatMap (elemRows pick (p.setupPhases x wl mid hi).crystal b m i (ph.setup x wl mid hi))) := by
      intro pick gr
      exact (List.Perm.flatMap_left _ fun e _ => key pick e).trans (List.flatMap_append_perm _ _ _).symm
    rw [phaseRows_elems, phaseRows_elems, phaseRows_elems]
    refine ((flat Prod.fst _).append (flat Prod.snd _)).trans ?_
    show List.Perm ((_ ++ _) ++ (_ ++ _)) ((_ ++ _) ++ (_ ++ _))
    rw [List.append_assoc, List.append_assoc]
    refine List.Perm.append_left _ ?_
    rw [← List.append_assoc, ← List.append_assoc]
    exact List.Perm.append_right _ List.perm_append_comm

theorem range_kept {p : Polycrystal} (hp : ∀ ph ∈ p.phases, ph.Fresh) (b : Beam) (m : Motion) :
    (keptRows (p.setupPhases x wl lo hi).crystal b m).Perm
      (keptRows (p.setupPhases x wl lo mid).crystal b m ++ keptRows (p.setupPhases x wl mid hi).crystal b m) := by
  have := ((range_rows hx hwl h1 h2 hp b m).map (extendRow (p.setupPhases x wl lo hi).crystal b m)).filter (illuminated b)
  rw [List.map_append, List.filter_append] at this
  exact this
end

theorem dropLast_numbered (L : List (List Fl)) : (L.mapIdx fun i row => row ++ [fin (i : ℝ)]).map List.dropLast = L := by
  apply List.ext_getElem?
  intro i
  simp only [List.getElem?_map, List.getElem?_mapIdx, Option.map_map]
  cases L[i]? <;> simp

/-- what `diffract` computes -/
theorem diffract_limits {x : Xfab} {p : Polycrystal} {b : Beam} {m : Motion} {lo hi lo' hi' : ℝ} {det : Option Detector}
    (hl : p.limits b lo hi det = .ok (lo', hi')) : p.diffract x b m lo hi det =
      if p.mapKind = .numpy ∧ p.phases ≠ [] then .error .typeError else
      if (allPhaseRows (p.setupPhases x b.wavelength lo' hi').crystal b m).length = 1 then .error .indexError else
      .ok (⟨(keptRows (p.setupPhases x b.wavelength lo' hi').crystal b m).mapIdx fun i row => row ++ [fin (i : ℝ)], peakColumns, b.waveVector,
        b.wavelength, m.axis, m, b⟩, p.setupPhases x b.wavelength lo' hi') := by
  have hk : ((p.setupPhases x b.wavelength lo' hi').crystal.mapKind = .numpy ∧ (p.setupPhases x b.wavelength lo' hi').crystal.phases ≠ []) ↔
      (p.mapKind = .numpy ∧ p.phases ≠ []) := by
    refine and_congr Iff.rfl ?_
    show p.phases.map _ ≠ [] ↔ _
    simp
  unfold Polycrystal.diffract
  rw [hl]
  dsimp only
  rw [core_eq_all]
  by_cases h0 : p.mapKind = .numpy ∧ p.phases ≠ []
  · rw [if_pos h0, if_pos (hk.mpr h0)]
  · rw [if_neg h0, if_neg (fun h => h0 (hk.mp h))]
    split_ifs <;> rfl

theorem diffract_kept {x : Xfab} {p : Polycrystal} {b : Beam} {m : Motion} {lo hi lo' hi' : ℝ} {det : Option Detector} {d : PeaksDict}
    {p' : Polycrystal} (hl : p.limits b lo hi det = .ok (lo', hi')) (h : p.diffract x b m lo hi det = .ok (d, p')) :
    ¬ (p.mapKind = .numpy ∧ p.phases ≠ []) ∧ (allPhaseRows (p.setupPhases x b.wavelength lo' hi').crystal b m).length ≠ 1 ∧
    p' = p.setupPhases x b.wavelength lo' hi' ∧ d.columns = peakColumns ∧
    unnumbered d = keptRows (p.setupPhases x b.wavelength lo' hi').crystal b m := by
  rw [diffract_limits hl] at h
  split_ifs at h with h0 h1
  obtain ⟨rfl, rfl⟩ := Prod.mk.inj (Except.ok.inj h)
  exact ⟨h0, h1, rfl, rfl, dropLast_numbered _⟩

/-- a set-up replaces the earlier one -/
theorem setup_again {x : Xfab} {p : Polycrystal} (hp : ∀ ph ∈ p.phases, ph.Fresh) (wl lo hi wl' lo' hi' : ℝ) :
    (p.setupPhases x wl lo hi).setupPhases x wl' lo' hi' = p.setupPhases x wl' lo' hi' := by
  unfold Polycrystal.setupPhases
  simp only [Polycrystal.mk.injEq, true_and, and_true]
  rw [List.map_map]
  exact List.map_congr_left fun ph h => Phase.setup_setup (hp ph h) _ _ _ _ _ _

/-- C117, the range in parts: if a program computes the peaks with Bragg angles from `lo` to `mid` and then, with the same sample, those
from `mid` to `hi`, then the computation for the whole range from `lo` to `hi` succeeds too, and its table holds exactly the rows of the
two tables, each as often as there, up to the order and the running numbers. -/
theorem C117_range_in_parts (x : Xfab) (hx : ListsByRange x) (p : Polycrystal) (hp : Program x p) (b : Beam) (hwl : 0 < b.wavelength) (m : Motion)
    (lo mid hi : ℝ) (h0 : 0 ≤ lo) (h1 : lo ≤ mid) (h2 : mid ≤ hi) (h3 : hi ≤ Real.pi / 2) (d1 d2 : PeaksDict) (p1 p2 : Polycrystal)
    (e1 : p.diffract x b m lo mid none = .ok (d1, p1)) (e2 : p1.diffract x b m mid hi none = .ok (d2, p2)) :
    ∃ d p0, p.diffract x b m lo hi none = .ok (d, p0) ∧ d.columns = d1.columns ∧ d.columns = d2.columns ∧
      (unnumbered d).Perm (unnumbered d1 ++ unnumbered d2) := by
  have hpi := Real.pi_pos
  have s1 : Real.sin lo ≤ Real.sin mid := Real.sin_le_sin_of_le_of_le_pi_div_two (by linarith) (by linarith) h1
  have s2 : Real.sin mid ≤ Real.sin hi := Real.sin_le_sin_of_le_of_le_pi_div_two (by linarith) (by linarith) h2
  have hf := program_fresh hp
  obtain ⟨a0, a1, rfl, a3, a4⟩ := diffract_kept (lo' := lo) (hi' := mid) rfl e1
  obtain ⟨-, b1, rfl, b3, b4⟩ := diffract_kept (lo' := mid) (hi' := hi) rfl e2
  rw [setup_again hf] at b1 b4
  have hrows := (range_rows hx hwl s1 s2 hf b m).length_eq
  rw [List.length_append] at hrows
  have hne : (allPhaseRows (p.setupPhases x b.wavelength lo hi).crystal b m).length ≠ 1 := by omega
  have hd := diffract_limits (x := x) (p := p) (b := b) (m := m) (lo := lo) (hi := hi) (lo' := lo) (hi' := hi) (det := none) rfl
  rw [if_neg a0, if_neg hne] at hd
  refine ⟨_, _, hd, a3.symm, b3.symm, ?_⟩
  rw [a4, b4, (diffract_kept (lo' := lo) (hi' := hi) rfl hd).2.2.2.2]
  exact range_kept hx hwl s1 s2 hf b m

/-- C117, a narrower range: every peak computed with narrower Bragg limits is computed with the wider ones, with the same row but for the
running number (and as often). -/
theorem C117_narrower_range (x : Xfab) (hx : ListsByRange x) (p : Polycrystal) (hp : Program x p) (b : Beam) (hwl : 0 < b.wavelength) (m : Motion)
    (lo lo' hi' hi : ℝ) (h0 : 0 ≤ lo) (h1 : lo ≤ lo') (h2 : lo' ≤ hi') (h3 : hi' ≤ hi) (h4 : hi ≤ Real.pi / 2) (d d' : PeaksDict) (p1 p2 : Polycrystal)
    (e1 : p.diffract x b m lo hi none = .ok (d, p1)) (e2 : p.diffract x b m lo' hi' none = .ok (d', p2)) :
    d'.columns = d.columns ∧ (unnumbered d').Subperm (unnumbered d) := by
  have hpi := Real.pi_pos
  have s1 : Real.sin lo ≤ Real.sin lo' := Real.sin_le_sin_of_le_of_le_pi_div_two (by linarith) (by linarith) h1
  have s2 : Real.sin lo' ≤ Real.sin hi' := Real.sin_le_sin_of_le_of_le_pi_div_two (by linarith) (by linarith) h2
  have s3 : Real.sin hi' ≤ Real.sin hi := Real.sin_le_sin_of_le_of_le_pi_div_two (by linarith) (by linarith) h3
  have hf := program_fresh hp
  obtain ⟨-, -, -, a3, a4⟩ := diffract_kept (lo' := lo) (hi' := hi) rfl e1
  obtain ⟨-, -, -, b3, b4⟩ := diffract_kept (lo' := lo') (hi' := hi') rfl e2
  refine ⟨by rw [a3, b3], ?_⟩
  rw [a4, b4]
  have k1 := range_kept hx hwl s1 (s2.trans s3) hf b m
  have k2 := range_kept hx hwl s2 s3 hf b m
  exact ((List.sublist_append_left _ _).subperm.trans k2.symm.subperm).trans
    (((List.sublist_append_right _ _).subperm).trans k1.symm.subperm)

/-- C117, with a detector: naming a detector when diffracting only drops peaks. -/
theorem C117_detector_narrows (x : Xfab) (hx : ListsByRange x) (p : Polycrystal) (hp : Program x p) (b : Beam) (hwl : 0 < b.wavelength)
    (hk : b.waveVector ≠ 0) (m : Motion) (lo hi : ℝ) (D : Detector) (d d' : PeaksDict) (p1 p2 : Polycrystal)
    (e1 : p.diffract x b m lo (Real.pi / 2) none = .ok (d, p1)) (e2 : p.diffract x b m lo hi (some D) = .ok (d', p2)) :
    d'.columns = d.columns ∧ (unnumbered d').Subperm (unnumbered d) := by
  obtain ⟨lo', hi', hl, -, -⟩ := Polycrystal.diffract_ok e2
  obtain ⟨rfl, hc, c1, c2⟩ := (C38_limits_used p b lo hi lo' hi' D).2.mp hl
  have hle : hi' ≤ Real.pi / 2 := by
    have := (wrappingCone_val hk hc).2
    simp only [List.mem_cons, List.not_mem_nil, or_false] at this
    have h4 := fun v => (angle_mem b.waveVector v).2
    rcases this with h | h | h | h <;> [have := h4 (D.c0 - p.sourcePoint b); have := h4 (D.c1 - p.sourcePoint b);
      have := h4 (D.c2 - p.sourcePoint b); have := h4 (D.c2 + (D.c1 - D.c0) - p.sourcePoint b)] <;> linarith
  obtain ⟨t0, t1, rfl, -, -⟩ := diffract_kept hl e2
  have e3 : p.diffract x b m lo' hi' none = .ok (d', p.setupPhases x b.wavelength lo' hi') := by
    rw [← e2, diffract_limits hl, diffract_limits (lo' := lo') (hi' := hi') (det := none) rfl]
  exact C117_narrower_range x hx p hp b hwl m lo' lo' hi' (Real.pi / 2) c1 le_rfl c2.le hle le_rfl d d' p1 _ e1 e3

/-! ### not vacuous -/

/-- the generator of the scene, with xfab's convention for the boundary -/
noncomputable def halfOpenX : Xfab := { sceneX with
  genhkl := fun _ lo hi _ => if lo < Real.sqrt 2 / (4 * Real.pi) ∧ Real.sqrt 2 / (4 * Real.pi) ≤ hi then [⟨1, 0, 0⟩] else [] }

theorem halfOpenX_lists : ListsByRange halfOpenX := by
  refine ⟨?_, fun cell sg cif => ⟨fun _ => (1, 0), fun l => rfl⟩⟩
  intro cell sg a c b h1 h2
  unfold halfOpenX
  dsimp only
  generalize Real.sqrt 2 / (4 * Real.pi) = s
  by_cases k1 : a < s <;> by_cases k2 : s ≤ c <;> by_cases k3 : s ≤ b <;> simp [k1, k2, k3, lt_of_not_ge] <;> first | (exfalso; linarith) | skip
  all_goals first | (intros; linarith) | (exact absurd (k2.trans h2) k3) | (simp at *; linarith)

theorem halfOpen_setup (lo hi : ℝ) (hlo : Real.sin lo < Real.sqrt 2 / 2) (hhi : Real.sqrt 2 / 2 ≤ Real.sin hi) :
    scenePoly.setupPhases halfOpenX demoBeam.wavelength lo hi = scenePoly.setupPhases sceneX demoBeam.wavelength lo hi := by
  have hp := Real.pi_pos
  have e : Real.sqrt 2 / (4 * Real.pi) = (Real.sqrt 2 / 2) / (2 * Real.pi) := by field_simp; ring
  have hc : Real.sin lo / (2 * Real.pi) < Real.sqrt 2 / (4 * Real.pi) ∧ Real.sqrt 2 / (4 * Real.pi) ≤ Real.sin hi / (2 * Real.pi) := by
    rw [e]
    exact ⟨div_lt_div_of_pos_right hlo (by positivity), div_le_div_of_nonneg_right hhi (by positivity)⟩
  simp only [Polycrystal.setupPhases, scenePoly, polyOf, List.map]
  rw [scene_setup lo hi hlo.le hhi]
  unfold Phase.setup scenePhase Phase.new halfOpenX demoBeam
  dsimp only
  rw [if_pos hc]

theorem halfOpen_program : Program halfOpenX scenePoly :=
  Program.new sceneMesh_new (by intro f hf; rw [List.mem_singleton.mp hf]; exact ⟨_, _, _, rfl⟩)
    (show Polycrystal.new halfOpenX sceneMesh (.one 1) (.one 0) (.one scenePhase) (some [0]) = .ok scenePoly from scenePoly_new)

/-- the hypotheses of `C117_range_in_parts` are met by a sample with peaks -/
example : ∃ d1 d2 p1 p2, ListsByRange halfOpenX ∧ Program halfOpenX scenePoly ∧ 0 < demoBeam.wavelength ∧
    scenePoly.diffract halfOpenX demoBeam demoZ 0 (Real.pi / 6) none = .ok (d1, p1) ∧
    p1.diffract halfOpenX demoBeam demoZ (Real.pi / 6) (Real.pi / 2) none = .ok (d2, p2) ∧ d1.peaks = [] ∧ d2.peaks ≠ [] := by
  have hp := Real.pi_pos
  have hpr := halfOpen_program
  have h3 : (1 : ℝ) / 2 < Real.sqrt 2 / 2 := by
    have : (1 : ℝ) < Real.sqrt 2 := by rw [Real.lt_sqrt (by norm_num)]; norm_num
    linarith
  have h4 : Real.sqrt 2 / 2 ≤ 1 := by
    have : Real.sqrt 2 ≤ 2 := by rw [Real.sqrt_le_left (by norm_num)]; norm_num
    linarith
  -- the low range holds no plane
  have hno : scenePhase.setup halfOpenX demoBeam.wavelength 0 (Real.pi / 6) = ⟨[1, 1, 1, 90, 90, 90], "P1", none, [], none⟩ := by
    have e : Real.sqrt 2 / (4 * Real.pi) = (Real.sqrt 2 / 2) / (2 * Real.pi) := by field_simp; ring
    have hc : ¬ (Real.sqrt 2 / (4 * Real.pi) ≤ Real.sin (Real.pi / 6) / (2 * Real.pi)) := by
      rw [e, Real.sin_pi_div_six, not_le]
      exact div_lt_div_of_pos_right h3 (by positivity)
    unfold Phase.setup scenePhase Phase.new halfOpenX demoBeam
    dsimp only
    rw [if_neg fun h => hc h.2]
  have hempty : allPhaseRows (scenePoly.setupPhases halfOpenX demoBeam.wavelength 0 (Real.pi / 6)).crystal demoBeam demoZ = [] := by
    have hph : scenePoly.setupPhases halfOpenX demoBeam.wavelength 0 (Real.pi / 6) =
        { scenePoly with phases := [⟨[1, 1, 1, 90, 90, 90], "P1", none, [], none⟩] } := by
      simp only [Polycrystal.setupPhases, scenePoly, polyOf, List.map]; rw [hno]
    rw [hph]
    unfold allPhaseRows
    rw [List.flatMap_eq_nil_iff]
    intro i hi
    have hi : i < 1 := List.mem_range.mp hi
    interval_cases i
    show phaseRows _ _ _ 0 ⟨[1, 1, 1, 90, 90, 90], "P1", none, [], none⟩ = []
    rw [phaseRows_elems]
    have hz : ∀ pick c e, elemRows pick c demoBeam demoZ 0 ⟨[1, 1, 1, 90, 90, 90], "P1", none, [], none⟩ e = [] := by
      intro pick c e
      rw [elemRows_planes]
      rfl
    simp only [List.append_eq_nil_iff, List.flatMap_eq_nil_iff]
    exact ⟨fun e _ => hz _ _ e, fun e _ => hz _ _ e⟩
  have hd := diffract_limits (x := halfOpenX) (p := scenePoly) (b := demoBeam) (m := demoZ) (lo := 0) (hi := Real.pi / 6) (lo' := 0)
    (hi' := Real.pi / 6) (det := none) rfl
  rw [hempty, if_neg (by rintro ⟨h, -⟩; cases h), if_neg (by simp)] at hd
  -- the high range is that of the scene
  have hsc : ∀ lo hi, Real.sin lo < Real.sqrt 2 / 2 → Real.sqrt 2 / 2 ≤ Real.sin hi →
      scenePoly.diffract halfOpenX demoBeam demoZ lo hi none = scenePoly.diffract sceneX demoBeam demoZ lo hi none := by
    intro lo hi k1 k2
    rw [diffract_limits (lo' := lo) (hi' := hi) (det := none) rfl, diffract_limits (lo' := lo) (hi' := hi) (det := none) rfl, halfOpen_setup lo hi k1 k2]
  obtain ⟨d2, p2, k1, -, row, hrow, -⟩ := scene_diffract none (Real.pi / 6) (Real.pi / 2) (Real.pi / 6) (Real.pi / 2) rfl
    (by rw [Real.sin_pi_div_six]; exact h3.le) (by rw [Real.sin_pi_div_two]; exact h4)
  have hfr := program_fresh hpr
  refine ⟨_, d2, _, p2, halfOpenX_lists, hpr, ?_, hd, ?_, ?_, List.ne_nil_of_mem hrow⟩
  · show 0 < 2 * Real.pi; positivity
  · rw [← k1, ← hsc _ _ (by rw [Real.sin_pi_div_six]; exact h3) (by rw [Real.sin_pi_div_two]; exact h4),
      diffract_limits (lo' := Real.pi / 6) (hi' := Real.pi / 2) (det := none) rfl,
      diffract_limits (lo' := Real.pi / 6) (hi' := Real.pi / 2) (det := none) rfl, setup_again hfr]
    rfl
  · show (keptRows _ _ _).mapIdx _ = []
    have : keptRows (scenePoly.setupPhases halfOpenX demoBeam.wavelength 0 (Real.pi / 6)).crystal demoBeam demoZ = [] := by
      unfold keptRows; rw [hempty]; rfl
    rw [this]
    rfl

/-- the hypotheses of `C117_narrower_range` and of `C117_detector_narrows` are met by a sample with peaks -/
example : (∃ d d' p1 p2, scenePoly.diffract halfOpenX demoBeam demoZ 0 (Real.pi / 2) none = .ok (d, p1) ∧
      scenePoly.diffract halfOpenX demoBeam demoZ (Real.pi / 6) (Real.pi / 3) none = .ok (d', p2) ∧ d'.peaks ≠ []) ∧
    ∃ d d' p1 p2, scenePoly.diffract halfOpenX demoBeam demoZ 0 (Real.pi / 2) none = .ok (d, p1) ∧
      scenePoly.diffract halfOpenX demoBeam demoZ 0 (Real.pi / 18) (some backDet) = .ok (d', p2) ∧ d'.peaks ≠ [] ∧
      demoBeam.waveVector ≠ 0 := by
  have hp := Real.pi_pos
  have h3 : (1 : ℝ) / 2 < Real.sqrt 2 / 2 := by
    have : (1 : ℝ) < Real.sqrt 2 := by rw [Real.lt_sqrt (by norm_num)]; norm_num
    linarith
  have h4 : Real.sqrt 2 / 2 ≤ 1 := by
    have : Real.sqrt 2 ≤ 2 := by rw [Real.sqrt_le_left (by norm_num)]; norm_num
    linarith
  have h5 : Real.sqrt 2 / 2 ≤ Real.sqrt 3 / 2 := by
    have := Real.sqrt_le_sqrt (show (2 : ℝ) ≤ 3 by norm_num)
    linarith
  have h0 : Real.sin 0 < Real.sqrt 2 / 2 := by rw [Real.sin_zero]; linarith
  have go : ∀ (lo hi lo' hi' : ℝ) (det : Option Detector), scenePoly.limits demoBeam lo hi det = .ok (lo', hi') → Real.sin lo' < Real.sqrt 2 / 2 →
      Real.sqrt 2 / 2 ≤ Real.sin hi' → ∃ d p', scenePoly.diffract halfOpenX demoBeam demoZ lo hi det = .ok (d, p') ∧ d.peaks ≠ [] := by
    intro lo hi lo' hi' det hl k1 k2
    obtain ⟨d, p', hd, -, row, hrow, -⟩ := scene_diffract det lo hi lo' hi' hl k1.le k2
    refine ⟨d, p', ?_, List.ne_nil_of_mem hrow⟩
    rw [← hd, diffract_limits hl, diffract_limits hl, halfOpen_setup lo' hi' k1 k2]
  obtain ⟨d, p1, e1, -⟩ := go 0 (Real.pi / 2) 0 (Real.pi / 2) none rfl h0 (by rw [Real.sin_pi_div_two]; exact h4)
  obtain ⟨d', p2, e2, n2⟩ := go (Real.pi / 6) (Real.pi / 3) (Real.pi / 6) (Real.pi / 3) none rfl (by rw [Real.sin_pi_div_six]; exact h3)
    (by rw [Real.sin_pi_div_three]; exact h5)
  obtain ⟨c, hc, c1, c2⟩ := scene_limits
  obtain ⟨d3, p3, e3, n3⟩ := go 0 (Real.pi / 18) 0 c (some backDet) hc h0 (by
    rw [← Real.sin_pi_div_four]
    exact Real.sin_le_sin_of_le_of_le_pi_div_two (by linarith) c2 c1)
  exact ⟨⟨d, d', p1, p2, e1, e2, n2⟩, d, d3, p1, p3, e1, e3, n3, ex_ne_zero⟩

end XRD
