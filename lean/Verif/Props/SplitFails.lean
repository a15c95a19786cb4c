import Verif.Props.Split

/-! C73: the part of the claim that is false of the code, and examples meeting the hypotheses of the theorems. -/

namespace XRD
open V3 M3 Fl Spec
open scoped Classical

/-- a generator obeying the specification of `genhkl_all` for the lattice matrix `B`: those of (1,0,0) and (0,1,0) whose `sin θ / λ`
is between the limits -/
noncomputable def duoX (B : M3) : Xfab :=
  { formB := fun _ => B
    genhkl := fun _ lo hi _ => ([⟨1, 0, 0⟩, ⟨0, 1, 0⟩] : List HKL).filter fun h =>
      decide (lo ≤ norm (B.mulVec h.toV) / (4 * Real.pi) ∧ norm (B.mulVec h.toV) / (4 * Real.pi) ≤ hi)
    sfBatch := fun h _ _ _ => h.map fun _ => (1, 0) }

theorem polyOf_built (B : M3) : Built (polyOf B) :=
  ⟨xOf B, _, _, sceneMesh, .one 1, .one 0, .one scenePhase, some [0], polyOf B, [], sceneMesh_new, polyOf_new B, by simp, rfl⟩

theorem polyOf_fresh (B : M3) : ∀ ph ∈ (polyOf B).phases, ph.Fresh := by
  intro ph h
  simp only [polyOf, List.mem_singleton] at h
  subst h; intro _; rfl

/-- the phase with both reflections set up -/
def duoPhase : Phase := ⟨[1, 1, 1, 90, 90, 90], "P1", none, [⟨1, 0, 0⟩, ⟨0, 1, 0⟩], none⟩

theorem duo_setup {B : M3} (h1 : norm (B.mulVec ⟨1, 0, 0⟩) ≤ 2) (h2 : norm (B.mulVec ⟨0, 1, 0⟩) ≤ 2) :
    scenePhase.setup (duoX B) demoBeam.wavelength 0 (Real.pi / 2) = duoPhase := by
  have hp := Real.pi_pos
  have key : ∀ r : ℝ, 0 ≤ r → r ≤ 2 → 0 / (2 * Real.pi) ≤ r / (4 * Real.pi) ∧ r / (4 * Real.pi) ≤ 1 / (2 * Real.pi) := by
    intro r h0 hr
    constructor
    · rw [zero_div]; positivity
    · rw [div_le_div_iff₀ (by positivity) (by positivity)]; nlinarith
  have e1 : HKL.toV ⟨1, 0, 0⟩ = ⟨1, 0, 0⟩ := by simp [HKL.toV]
  have e2 : HKL.toV ⟨0, 1, 0⟩ = ⟨0, 1, 0⟩ := by simp [HKL.toV]
  unfold Phase.setup scenePhase Phase.new duoX demoBeam duoPhase
  simp only [Real.sin_zero, Real.sin_pi_div_two]
  rw [List.filter_cons_of_pos, List.filter_cons_of_pos, List.filter_nil]
  · rw [decide_eq_true_iff, e2]; exact key _ (V3.norm_nonneg _) h2
  · rw [decide_eq_true_iff, e1]; exact key _ (V3.norm_nonneg _) h1

/-- a crystal of one element, as `diffract` sees it with both reflections set up -/
def duoCrystal (U B : M3) (sc : V3) (vol : ℝ) : Crystal := ⟨.torch, [0], [duoPhase], [U], [B], [sc], [vol]⟩

theorem duoCrystal_consistent (U B : M3) (sc : V3) (vol : ℝ) : ∀ ph ∈ (duoCrystal U B sc vol).phases, ph.Consistent := by
  intro ph h
  simp only [duoCrystal, List.mem_singleton] at h
  subst h; intro sf h; cases h

theorem duo_reflection (U B : M3) (sc : V3) (vol : ℝ) :
    Reflection (duoCrystal U B sc vol) 0 0 duoPhase 0 ⟨1, 0, 0⟩ 1 ∧ Reflection (duoCrystal U B sc vol) 0 0 duoPhase 1 ⟨0, 1, 0⟩ 1 :=
  ⟨⟨by simp [duoCrystal], rfl, rfl, rfl⟩, ⟨by simp [duoCrystal], rfl, rfl, rfl⟩⟩

theorem duo_reflections {U B : M3} {sc : V3} {vol : ℝ} {e i n : ℕ} {ph : Phase} {hkl : HKL} {w : ℝ}
    (h : Reflection (duoCrystal U B sc vol) e i ph n hkl w) : e = 0 ∧ (hkl = ⟨1, 0, 0⟩ ∨ hkl = ⟨0, 1, 0⟩) := by
  have he : e = 0 := by
    have := h.inPhase
    obtain ⟨h1, -⟩ := List.getElem?_eq_some_iff.mp this
    simp [duoCrystal] at h1; exact h1
  have hph : ph = duoPhase := by
    have := List.mem_of_getElem? h.phase
    simpa [duoCrystal] using this
  subst hph
  refine ⟨he, ?_⟩
  have := List.mem_of_getElem? h.usable.1
  simpa [duoPhase] using this

/-- if neither reflection is found the table is empty -/
theorem duo_empty (U B : M3) (sc : V3) (vol : ℝ) (m : Motion) (h1 : ∀ t, ¬ Found demoBeam m (getG U B ⟨1, 0, 0⟩) t)
    (h2 : ∀ t, ¬ Found demoBeam m (getG U B ⟨0, 1, 0⟩) t) :
    ∃ d, diffractCore (duoCrystal U B sc vol) demoBeam m = .ok d ∧ d.peaks = [] := by
  have hrows : allPhaseRows (duoCrystal U B sc vol) demoBeam m = [] := by
    rw [List.eq_nil_iff_forall_not_mem]
    intro r hr
    obtain ⟨e, i, ph, n, hkl, w, t, hr, hf, -⟩ := (mem_allPhaseRows (duoCrystal_consistent U B sc vol)).mp hr
    obtain ⟨rfl, rfl | rfl⟩ := duo_reflections hr
    · exact h1 t (by simpa [Crystal.G0, duoCrystal, HKL.toV] using hf)
    · exact h2 t (by simpa [Crystal.G0, duoCrystal, HKL.toV] using hf)
  have hc : computePeaks (duoCrystal U B sc vol) demoBeam m = .ok [] := by
    unfold computePeaks
    rw [if_neg (by simp [duoCrystal])]
    simp [hrows]
  unfold diffractCore
  rw [hc]
  exact ⟨_, rfl, rfl⟩

/-- if both reflections are found the table has a row for each -/
theorem duo_found (U B : M3) (sc : V3) (hsc : nsq sc < 100) (vol : ℝ) (m : Motion) (hax : norm m.axis = 1) (hT : m.translation = 0)
    (ho : m.origin = 0) {t1 t2 : ℝ} (h1 : Found demoBeam m (getG U B ⟨1, 0, 0⟩) t1) (h2 : Found demoBeam m (getG U B ⟨0, 1, 0⟩) t2) :
    ∃ d, diffractCore (duoCrystal U B sc vol) demoBeam m = .ok d ∧
      ∃ idx : ℕ, row24 (duoCrystal U B sc vol) demoBeam m 0 0 ⟨1, 0, 0⟩ 1 t1 ++ [fin idx] ∈ d.peaks := by
  set c := duoCrystal U B sc vol with hc
  have hcons := duoCrystal_consistent U B sc vol
  rw [← hc] at hcons
  have k1 : Found demoBeam m (c.G0 0 ⟨1, 0, 0⟩) t1 := by simpa [Crystal.G0, hc, duoCrystal, HKL.toV] using h1
  have k2 : Found demoBeam m (c.G0 0 ⟨0, 1, 0⟩) t2 := by simpa [Crystal.G0, hc, duoCrystal, HKL.toV] using h2
  obtain ⟨r1, r2⟩ := duo_reflection U B sc vol
  rw [← hc] at r1 r2
  have m1 : row10 c 0 0 ⟨1, 0, 0⟩ 1 t1 ∈ allPhaseRows c demoBeam m := (mem_allPhaseRows hcons).mpr ⟨_, _, _, _, _, _, _, r1, k1, rfl⟩
  have m2 : row10 c 0 0 ⟨0, 1, 0⟩ 1 t2 ∈ allPhaseRows c demoBeam m := (mem_allPhaseRows hcons).mpr ⟨_, _, _, _, _, _, _, r2, k2, rfl⟩
  have hlen : (allPhaseRows c demoBeam m).length ≠ 1 := by
    intro hl
    obtain ⟨r, hr⟩ := List.length_eq_one_iff.mp hl
    rw [hr, List.mem_singleton] at m1 m2
    have := m1.trans m2.symm
    simp [row10] at this
  have hok : ∃ rows, computePeaks c demoBeam m = .ok rows := by
    unfold computePeaks
    rw [if_neg (by simp [hc, duoCrystal])]
    dsimp only
    rw [if_neg hlen]
    exact ⟨_, rfl⟩
  obtain ⟨rows, hrows⟩ := hok
  have hd : ∃ d, diffractCore c demoBeam m = .ok d := by
    unfold diffractCore; rw [hrows]; exact ⟨_, rfl⟩
  obtain ⟨d, hd⟩ := hd
  refine ⟨d, hd, mem_diffract_of hcons hd r1 k1 ?_⟩
  apply demoBeam_contains
  rw [call1_nsq hax hT ho]
  simpa [hc, duoCrystal] using hsc

/-- the crystal of the scene moved by `M` and set up -/
theorem duo_moved {B : M3} (h1 : norm (B.mulVec ⟨1, 0, 0⟩) ≤ 2) (h2 : norm (B.mulVec ⟨0, 1, 0⟩) ≤ 2) (hist : Option Motion) :
    let p := match hist with | none => polyOf B | some M => (polyOf B).transform M 1
    let U := match hist with | none => 1 | some M => rotMat M.axis (M.angle * 1) * 1
    let sc := match hist with
      | none => sceneMesh.espherecentroids.getD 0 0
      | some M => M.call1 (sceneMesh.espherecentroids.getD 0 0) 1
    (p.setupPhases (duoX B) demoBeam.wavelength 0 (Real.pi / 2)).crystal = duoCrystal U B sc ((polyOf B).meshVolumes.getD 0 0) := by
  cases hist with
  | none =>
    simp only [Polycrystal.setupPhases, Polycrystal.crystal, polyOf, List.map, duo_setup h1 h2]
    rfl
  | some M =>
    simp only [Polycrystal.setupPhases, Polycrystal.crystal, Polycrystal.transform, polyOf, List.map, duo_setup h1 h2]
    rfl


theorem demo_elastic (G : V3) (θ : ℝ) : Elastic demoBeam.waveVector (rotate ⟨0, 0, 1⟩ θ G) ↔
    G.x * Real.cos θ - G.y * Real.sin θ + nsq G / 2 = 0 := by
  have ha : nsq (⟨0, 0, 1⟩ : V3) = 1 := norm_eq_one.mp norm_ez
  rw [← laue_iff_elastic ha]
  obtain ⟨h0, h1, h2⟩ := demo_rho G
  show (rho0Factor ⟨1, 0, 0⟩ ⟨0, 0, 1⟩).dot G * _ + (rho1Factor ⟨1, 0, 0⟩ ⟨0, 0, 1⟩).dot G * _ +
    ((rho2Factor ⟨1, 0, 0⟩ ⟨0, 0, 1⟩).dot G + _) = 0 ↔ _
  rw [h0, h1, h2]
  constructor <;> intro h <;> linarith

theorem demo_elastic_half (G : V3) {s : ℝ} (h : (nsq G / 2 - G.x) * s ^ 2 - 2 * G.y * s + (G.x + nsq G / 2) = 0) :
    Elastic demoBeam.waveVector (rotate ⟨0, 0, 1⟩ (2 * Real.arctan s) G) := by
  rw [demo_elastic]
  have := (half_angle s G.x (-G.y) (nsq G / 2)).mpr (by linarith)
  linarith

/-- the first half of the quarter turn -/
noncomputable def firstHalf : Motion := ⟨⟨0, 0, 1⟩, 1/2 * (Real.pi / 2), (1/2 : ℝ) • 0, 0⟩
/-- the second half of the quarter turn -/
noncomputable def secondHalf : Motion := ⟨⟨0, 0, 1⟩, (1 - 1/2) * (Real.pi / 2), (1 - 1/2 : ℝ) • 0, 0 + (1/2 : ℝ) • 0⟩

theorem halves_new : Motion.new ⟨0, 0, 1⟩ (1/2 * (Real.pi / 2)) ((1/2 : ℝ) • 0) 0 = .ok firstHalf ∧
    Motion.new ⟨0, 0, 1⟩ ((1 - 1/2) * (Real.pi / 2)) ((1 - 1/2 : ℝ) • 0) (0 + (1/2 : ℝ) • 0) = .ok secondHalf := by
  have hp := Real.pi_pos
  have hax : axisAccepted ⟨0, 0, 1⟩ := by unfold axisAccepted allclose; rw [norm_ez]; norm_num
  have h1 : 1/2 * (Real.pi / 2) < Real.pi ∧ 1/2 * (Real.pi / 2) > 0 := ⟨by linarith, by linarith⟩
  have h2 : (1 - 1/2) * (Real.pi / 2) < Real.pi ∧ (1 - 1/2) * (Real.pi / 2) > 0 := ⟨by linarith, by linarith⟩
  constructor
  · unfold Motion.new; rw [if_pos h1, if_pos hax]; rfl
  · unfold Motion.new; rw [if_pos h2, if_pos hax]; rfl

/-- an event in the second half, at half the rotation angle `arctan s`, is found by the second half -/
theorem late_found {G : V3} {s : ℝ} (h0 : 1/2 ≤ s) (h1 : s < 1)
    (hq : (nsq G / 2 - G.x) * s ^ 2 - 2 * G.y * s + (G.x + nsq G / 2) = 0) (hxy : G.x ≤ G.y) (hG : 0 < nsq G) :
    Found demoBeam secondHalf (firstHalf.rotate1 G 1) (8 * Real.arctan s / Real.pi - 1) := by
  have hp := Real.pi_pos
  have ha : nsq (⟨0, 0, 1⟩ : V3) = 1 := norm_eq_one.mp norm_ez
  have hlo : Real.pi / 4 ≤ 2 * Real.arctan s := by
    rw [Real.two_mul_arctan (by linarith) h1, ← Real.arctan_one]
    apply Real.arctan_mono
    rw [le_div_iff₀ (by nlinarith)]
    nlinarith
  have hhi : Real.arctan s ≤ Real.pi / 4 := by rw [← Real.arctan_one]; exact Real.arctan_mono h1.le
  refine found_of_elastic ha (by positivity) (by linarith) ?_ ?_ ?_ ?_
  · have : 1 ≤ 8 * Real.arctan s / Real.pi := by rw [le_div_iff₀ hp]; linarith
    linarith
  · have : 8 * Real.arctan s / Real.pi ≤ 2 := by rw [div_le_iff₀ hp]; linarith
    linarith
  · have e : firstHalf.rotate1 G 1 = rotate ⟨0, 0, 1⟩ (1/2 * (Real.pi / 2)) G := by
      rw [← rotMat_eq_spec ha]; unfold Motion.rotate1 firstHalf; dsimp only; rw [_root_.mul_one]
    rw [e, rotate_rotate ha, demo_elastic]
    have e2 : Real.pi + 1/2 * (Real.pi / 2) = Real.pi / 4 + Real.pi := by ring
    rw [e2, Real.cos_add_pi, Real.sin_add_pi, Real.cos_pi_div_four, Real.sin_pi_div_four]
    have hs : 0 < Real.sqrt 2 := by positivity
    nlinarith
  · have e := split_rotate1 (T := 0) (o := 0) (w := Real.pi / 2) (l := 1/2) ha G (8 * Real.arctan s / Real.pi - 1)
    unfold firstHalf
    rw [e]
    have e2 : (⟨⟨0, 0, 1⟩, Real.pi / 2, 0, 0⟩ : Motion).rotate1 G (1/2 + (1 - 1/2) * (8 * Real.arctan s / Real.pi - 1)) =
        rotate ⟨0, 0, 1⟩ (2 * Real.arctan s) G := by
      rw [← rotMat_eq_spec ha]; unfold Motion.rotate1; dsimp only
      congr 2
      field_simp
      ring
    rw [e2]
    exact demo_elastic_half G hq

/-- the whole scan finds it, if the reflection is not degenerate for it -/
theorem whole_found {G : V3} {s : ℝ} (h0 : 0 ≤ s) (h1 : s ≤ 1)
    (hq : (nsq G / 2 - G.x) * s ^ 2 - 2 * G.y * s + (G.x + nsq G / 2) = 0) (hne : nsq G / 2 - G.x ≠ 0) :
    Found demoBeam demoZ G (2 * Real.arctan s / (Real.pi / 2)) := by
  have hp := Real.pi_pos
  have ha : nsq (⟨0, 0, 1⟩ : V3) = 1 := norm_eq_one.mp norm_ez
  obtain ⟨k0, k1⟩ := demo_time h0 h1
  refine found_of_elastic ha (by positivity) (by linarith) k0 k1 ?_ ?_
  · rw [demo_elastic, Real.cos_pi, Real.sin_pi]
    intro h; apply hne; linarith
  · have e2 : (⟨⟨0, 0, 1⟩, Real.pi / 2, 0, 0⟩ : Motion).rotate1 G (2 * Real.arctan s / (Real.pi / 2)) =
        rotate ⟨0, 0, 1⟩ (2 * Real.arctan s) G := by
      rw [← rotMat_eq_spec ha]; unfold Motion.rotate1; dsimp only
      congr 2
      field_simp
    rw [e2]
    exact demo_elastic_half G hq

theorem whole_not_found {G : V3} (h : nsq G / 2 = G.x) (t : ℝ) : ¬ Found demoBeam demoZ G t := by
  intro hf
  obtain ⟨h0, h1, h2⟩ := demo_rho G
  have hz : (rho2Factor demoBeam.waveVector demoZ.axis).dot G + nsq G / 2 - (rho0Factor demoBeam.waveVector demoZ.axis).dot G = 0 := by
    show (rho2Factor ⟨1, 0, 0⟩ ⟨0, 0, 1⟩).dot G + nsq G / 2 - (rho0Factor ⟨1, 0, 0⟩ ⟨0, 0, 1⟩).dot G = 0
    rw [h0, h2, h]; ring
  unfold Found at hf
  rw [laueRoots_nan hz] at hf
  simp [laueTime, Fl.arctan, keepTime] at hf

/-- lattice matrix with two reflections that are degenerate for the whole scan -/
noncomputable def lateB : M3 := ⟨⟨18/25, 18/25, 0⟩, ⟨24/25, 576/625, 0⟩, ⟨0, 168/625, 1⟩⟩
/-- lattice matrix with two ordinary reflections -/
noncomputable def plainB : M3 := ⟨⟨-3/5, -3/5, 1⟩, ⟨4/5, 4/5, 0⟩, ⟨1, -1, 0⟩⟩

theorem norm_le_two {v : V3} (h : nsq v ≤ 4) : norm v ≤ 2 := by
  unfold V3.norm; rw [Real.sqrt_le_left (by norm_num)]; linarith

theorem duo_core_first (p : Polycrystal) {B : M3} {c : Crystal} {m : Motion} {d : PeaksDict}
    (hc : (p.setupPhases (duoX B) demoBeam.wavelength 0 (Real.pi / 2)).crystal = c) (hd : diffractCore c demoBeam m = .ok d) :
    p.diffract (duoX B) demoBeam m 0 (Real.pi / 2) none = .ok (d, p.setupPhases (duoX B) demoBeam.wavelength 0 (Real.pi / 2)) := by
  unfold Polycrystal.diffract Polycrystal.limits
  dsimp only
  rw [hc, hd]

/-- second half of the scene: if both reflections of `B` have an event there, there are peaks -/
theorem duo_second {B : M3} (h1 : norm (B.mulVec ⟨1, 0, 0⟩) ≤ 2) (h2 : norm (B.mulVec ⟨0, 1, 0⟩) ≤ 2) {s1 s2 : ℝ} {G1 G2 : V3}
    (e1 : getG 1 B ⟨1, 0, 0⟩ = G1) (e2 : getG 1 B ⟨0, 1, 0⟩ = G2)
    (h10 : 1/2 ≤ s1) (h11 : s1 < 1) (hq1 : (nsq G1 / 2 - G1.x) * s1 ^ 2 - 2 * G1.y * s1 + (G1.x + nsq G1 / 2) = 0) (hx1 : G1.x ≤ G1.y)
    (hG1 : 0 < nsq G1)
    (h20 : 1/2 ≤ s2) (h21 : s2 < 1) (hq2 : (nsq G2 / 2 - G2.x) * s2 ^ 2 - 2 * G2.y * s2 + (G2.x + nsq G2 / 2) = 0) (hx2 : G2.x ≤ G2.y)
    (hG2 : 0 < nsq G2) :
    ∃ d p', ((polyOf B).transform firstHalf 1).diffract (duoX B) demoBeam secondHalf 0 (Real.pi / 2) none = .ok (d, p') ∧ d.peaks ≠ [] := by
  have k1 := late_found h10 h11 hq1 hx1 hG1
  have k2 := late_found h20 h21 hq2 hx2 hG2
  have g1 : getG (rotMat firstHalf.axis (firstHalf.angle * 1) * 1) B ⟨1, 0, 0⟩ = firstHalf.rotate1 G1 1 := by
    rw [turn_getG, e1]; rfl
  have g2 : getG (rotMat firstHalf.axis (firstHalf.angle * 1) * 1) B ⟨0, 1, 0⟩ = firstHalf.rotate1 G2 1 := by
    rw [turn_getG, e2]; rfl
  rw [← g1] at k1
  rw [← g2] at k2
  have z1 : firstHalf.translation = 0 := by show (1/2 : ℝ) • (0 : V3) = 0; ext <;> simp
  have z2 : secondHalf.translation = 0 := by show (1 - 1/2 : ℝ) • (0 : V3) = 0; ext <;> simp
  have z3 : secondHalf.origin = 0 := by show (0 : V3) + (1/2 : ℝ) • (0 : V3) = 0; ext <;> simp
  obtain ⟨d, hd, idx, hrow⟩ := duo_found _ B (firstHalf.call1 (sceneMesh.espherecentroids.getD 0 0) 1)
    (by rw [call1_nsq norm_ez z1 rfl]; exact scene_sphere) ((polyOf B).meshVolumes.getD 0 0) secondHalf norm_ez z2 z3 k1 k2
  refine ⟨d, _, duo_core_first _ (duo_moved h1 h2 (some firstHalf)) hd, ?_⟩
  intro h; rw [h] at hrow; cases hrow

/-- C73, what is missing from `C73_second_part_partial`: a crystal, beam and motion for which the second half of the scan reports
peaks although the whole scan reports none. -/
theorem C73_second_part_fails : ∃ (x : Xfab) (p : Polycrystal) (b : Beam) (a T o : V3) (w : ℝ) (m m1 m2 : Motion) (lo hi : ℝ)
    (d d2 : PeaksDict) (p' p2' : Polycrystal), (∀ h cell sg cif, (x.sfBatch h cell sg cif).length = h.length) ∧ Built p ∧
    (∀ ph ∈ p.phases, ph.Fresh) ∧ norm a = 1 ∧ Motion.new a w T o = .ok m ∧ Motion.new a (1/2 * w) ((1/2 : ℝ) • T) o = .ok m1 ∧
    Motion.new a ((1 - 1/2) * w) ((1 - 1/2 : ℝ) • T) (o + (1/2 : ℝ) • T) = .ok m2 ∧
    p.diffract x b m lo hi none = .ok (d, p') ∧ (p.transform m1 1).diffract x b m2 lo hi none = .ok (d2, p2') ∧
    d.peaks = [] ∧ d2.peaks ≠ [] := by
  have h1 : norm (lateB.mulVec ⟨1, 0, 0⟩) ≤ 2 := norm_le_two (by norm_num [lateB, mulVec, nsq, V3.dot])
  have h2 : norm (lateB.mulVec ⟨0, 1, 0⟩) ≤ 2 := norm_le_two (by norm_num [lateB, mulVec, nsq, V3.dot])
  have e1 : getG 1 lateB ⟨1, 0, 0⟩ = ⟨18/25, 24/25, 0⟩ := by
    ext <;> simp [getG, lateB, mulVec, vecMul, V3.dot]
  have e2 : getG 1 lateB ⟨0, 1, 0⟩ = ⟨18/25, 576/625, 168/625⟩ := by
    ext <;> simp [getG, lateB, mulVec, vecMul, V3.dot]
  have q1 : nsq (⟨18/25, 24/25, 0⟩ : V3) = 36/25 := by norm_num [nsq, V3.dot]
  have q2 : nsq (⟨18/25, 576/625, 168/625⟩ : V3) = 36/25 := by norm_num [nsq, V3.dot]
  obtain ⟨d2, p2', hd2, hne⟩ := duo_second h1 h2 (s1 := 3/4) (s2 := 25/32) e1 e2 (by norm_num) (by norm_num) (by rw [q1]; norm_num)
    (by norm_num) (by rw [q1]; norm_num) (by norm_num) (by norm_num) (by rw [q2]; norm_num) (by norm_num) (by rw [q2]; norm_num)
  obtain ⟨d, hd, hnil⟩ := duo_empty 1 lateB (sceneMesh.espherecentroids.getD 0 0) ((polyOf lateB).meshVolumes.getD 0 0) demoZ
    (whole_not_found (by rw [e1, q1]; norm_num)) (whole_not_found (by rw [e2, q2]; norm_num))
  exact ⟨duoX lateB, polyOf lateB, demoBeam, ⟨0, 0, 1⟩, 0, 0, Real.pi / 2, demoZ, firstHalf, secondHalf, 0, Real.pi / 2, d, d2, _, p2',
    by intros; simp [duoX], polyOf_built _, polyOf_fresh _, norm_ez, demoZ_new, halves_new.1, halves_new.2,
    duo_core_first _ (duo_moved h1 h2 none) hd, hd2, hnil, hne⟩

/-- C73 is not vacuous: a crystal, beam and motion for which the whole scan and both halves succeed, with a peak in the second half to
which `C73_second_part_partial` applies. -/
example : ∃ (d d2 : PeaksDict) (p' p2' : Polycrystal), Built (polyOf plainB) ∧ (∀ ph ∈ (polyOf plainB).phases, ph.Fresh) ∧
    (polyOf plainB).diffract (duoX plainB) demoBeam demoZ 0 (Real.pi / 2) none = .ok (d, p') ∧
    ((polyOf plainB).transform firstHalf 1).diffract (duoX plainB) demoBeam secondHalf 0 (Real.pi / 2) none = .ok (d2, p2') ∧
    d2.peaks ≠ [] ∧ ∃ row ∈ d.peaks, ∃ t g, Has d.columns row "diffraction_times" (fin t) ∧ 1/2 ≤ t ∧
      HasV d.columns row "G0_x" "G0_y" "G0_z" g ∧ ¬ Elastic demoBeam.waveVector (rotate ⟨0, 0, 1⟩ (Real.pi + 1/2 * (Real.pi / 2)) g) := by
  have hp := Real.pi_pos
  have h1 : norm (plainB.mulVec ⟨1, 0, 0⟩) ≤ 2 := norm_le_two (by norm_num [plainB, mulVec, nsq, V3.dot])
  have h2 : norm (plainB.mulVec ⟨0, 1, 0⟩) ≤ 2 := norm_le_two (by norm_num [plainB, mulVec, nsq, V3.dot])
  have e1 : getG 1 plainB ⟨1, 0, 0⟩ = ⟨-3/5, 4/5, 1⟩ := by
    ext <;> simp [getG, plainB, mulVec, vecMul, V3.dot]
  have e2 : getG 1 plainB ⟨0, 1, 0⟩ = ⟨-3/5, 4/5, -1⟩ := by
    ext <;> simp [getG, plainB, mulVec, vecMul, V3.dot]
  have q1 : nsq (⟨-3/5, 4/5, 1⟩ : V3) = 2 := by norm_num [nsq, V3.dot]
  have q2 : nsq (⟨-3/5, 4/5, -1⟩ : V3) = 2 := by norm_num [nsq, V3.dot]
  obtain ⟨d2, p2', hd2, hne⟩ := duo_second h1 h2 (s1 := 1/2) (s2 := 1/2) e1 e2 (by norm_num) (by norm_num) (by rw [q1]; norm_num)
    (by norm_num) (by rw [q1]; norm_num) (by norm_num) (by norm_num) (by rw [q2]; norm_num) (by norm_num) (by rw [q2]; norm_num)
  have k1 : Found demoBeam demoZ (getG 1 plainB ⟨1, 0, 0⟩) (2 * Real.arctan (1/2) / (Real.pi / 2)) :=
    whole_found (by norm_num) (by norm_num) (by rw [e1, q1]; norm_num) (by rw [e1, q1]; norm_num)
  have k2 : Found demoBeam demoZ (getG 1 plainB ⟨0, 1, 0⟩) (2 * Real.arctan (1/2) / (Real.pi / 2)) :=
    whole_found (by norm_num) (by norm_num) (by rw [e2, q2]; norm_num) (by rw [e2, q2]; norm_num)
  obtain ⟨d, hd, idx, hrow⟩ := duo_found 1 plainB (sceneMesh.espherecentroids.getD 0 0) scene_sphere
    ((polyOf plainB).meshVolumes.getD 0 0) demoZ norm_ez rfl rfl k1 k2
  refine ⟨d, d2, _, p2', polyOf_built _, polyOf_fresh _, duo_core_first _ (duo_moved h1 h2 none) hd, hd2, hne, _, hrow,
    2 * Real.arctan (1/2) / (Real.pi / 2), ⟨-3/5, 4/5, 1⟩, ?_⟩
  rw [diffract_columns hd]
  refine ⟨⟨6, rfl, rfl⟩, ?_, ⟨⟨7, rfl, ?_⟩, ⟨8, rfl, ?_⟩, ⟨9, rfl, ?_⟩⟩, ?_⟩
  · have : Real.pi / 4 ≤ 2 * Real.arctan (1/2) := by
      rw [Real.two_mul_arctan (by norm_num) (by norm_num), ← Real.arctan_one]
      apply Real.arctan_mono; norm_num
    rw [le_div_iff₀ (by positivity)]; linarith
  · simp [row24, Crystal.G0, duoCrystal, HKL.toV, e1]
  · simp [row24, Crystal.G0, duoCrystal, HKL.toV, e1]
  · simp [row24, Crystal.G0, duoCrystal, HKL.toV, e1]
  · rw [demo_elastic]
    have e2 : Real.pi + 1/2 * (Real.pi / 2) = Real.pi / 4 + Real.pi := by ring
    rw [e2, Real.cos_add_pi, Real.sin_add_pi, Real.cos_pi_div_four, Real.sin_pi_div_four, q1]
    have hs : 0 < Real.sqrt 2 := by positivity
    dsimp only
    nlinarith


/-- C73 is not vacuous: the whole scan and its first three quarters succeed, with a peak before time 3/4. -/
example : ∃ (m1 : Motion) (d d1 : PeaksDict) (p' p1' : Polycrystal),
    Motion.new ⟨0, 0, 1⟩ (3/4 * (Real.pi / 2)) ((3/4 : ℝ) • 0) 0 = .ok m1 ∧
    (polyOf plainB).diffract (duoX plainB) demoBeam demoZ 0 (Real.pi / 2) none = .ok (d, p') ∧
    (polyOf plainB).diffract (duoX plainB) demoBeam m1 0 (Real.pi / 2) none = .ok (d1, p1') ∧
    ∃ row ∈ d.peaks, Upto d.columns (3/4) row := by
  have hp := Real.pi_gt_three
  have ha : nsq (⟨0, 0, 1⟩ : V3) = 1 := norm_eq_one.mp norm_ez
  have h1 : norm (plainB.mulVec ⟨1, 0, 0⟩) ≤ 2 := norm_le_two (by norm_num [plainB, mulVec, nsq, V3.dot])
  have h2 : norm (plainB.mulVec ⟨0, 1, 0⟩) ≤ 2 := norm_le_two (by norm_num [plainB, mulVec, nsq, V3.dot])
  have e1 : getG 1 plainB ⟨1, 0, 0⟩ = ⟨-3/5, 4/5, 1⟩ := by
    ext <;> simp [getG, plainB, mulVec, vecMul, V3.dot]
  have e2 : getG 1 plainB ⟨0, 1, 0⟩ = ⟨-3/5, 4/5, -1⟩ := by
    ext <;> simp [getG, plainB, mulVec, vecMul, V3.dot]
  have q1 : nsq (⟨-3/5, 4/5, 1⟩ : V3) = 2 := by norm_num [nsq, V3.dot]
  have q2 : nsq (⟨-3/5, 4/5, -1⟩ : V3) = 2 := by norm_num [nsq, V3.dot]
  have hat : Real.arctan (1/2) ≤ 1/2 := by
    have h := Real.le_tan (x := Real.arctan (1/2)) (Real.arctan_nonneg.mpr (by norm_num)) (Real.arctan_lt_pi_div_two _)
    rwa [Real.tan_arctan] at h
  have hat0 : 0 ≤ Real.arctan (1/2) := Real.arctan_nonneg.mpr (by norm_num)
  have k1 : Found demoBeam demoZ (getG 1 plainB ⟨1, 0, 0⟩) (2 * Real.arctan (1/2) / (Real.pi / 2)) :=
    whole_found (by norm_num) (by norm_num) (by rw [e1, q1]; norm_num) (by rw [e1, q1]; norm_num)
  have k2 : Found demoBeam demoZ (getG 1 plainB ⟨0, 1, 0⟩) (2 * Real.arctan (1/2) / (Real.pi / 2)) :=
    whole_found (by norm_num) (by norm_num) (by rw [e2, q2]; norm_num) (by rw [e2, q2]; norm_num)
  obtain ⟨d, hd, idx, hrow⟩ := duo_found 1 plainB (sceneMesh.espherecentroids.getD 0 0) scene_sphere
    ((polyOf plainB).meshVolumes.getD 0 0) demoZ norm_ez rfl rfl k1 k2
  have early : ∀ G : V3, G.x = -3/5 → G.y = 4/5 → nsq G = 2 → Found demoBeam ⟨⟨0, 0, 1⟩, 3/4 * (Real.pi / 2), (3/4 : ℝ) • 0, 0⟩ G
      (2 * Real.arctan (1/2) / (3/4 * (Real.pi / 2))) := by
    intro G hx hy hn
    refine found_of_elastic ha (by positivity) (by linarith) (by positivity) ?_ ?_ ?_
    · rw [div_le_one (by positivity)]; linarith
    · rw [demo_elastic, Real.cos_pi, Real.sin_pi, hx, hn]; norm_num
    · have e2 : (⟨⟨0, 0, 1⟩, 3/4 * (Real.pi / 2), (3/4 : ℝ) • 0, 0⟩ : Motion).rotate1 G (2 * Real.arctan (1/2) / (3/4 * (Real.pi / 2))) =
          rotate ⟨0, 0, 1⟩ (2 * Real.arctan (1/2)) G := by
        rw [← rotMat_eq_spec ha]; unfold Motion.rotate1; dsimp only
        congr 2
        field_simp
      rw [e2]
      exact demo_elastic_half G (by rw [hx, hy, hn]; norm_num)
  have hax : axisAccepted ⟨0, 0, 1⟩ := by unfold axisAccepted allclose; rw [norm_ez]; norm_num
  obtain ⟨d1, hd1, -⟩ := duo_found 1 plainB (sceneMesh.espherecentroids.getD 0 0) scene_sphere
    ((polyOf plainB).meshVolumes.getD 0 0) ⟨⟨0, 0, 1⟩, 3/4 * (Real.pi / 2), (3/4 : ℝ) • 0, 0⟩ norm_ez (by ext <;> simp) rfl
    (early _ (by rw [e1]) (by rw [e1]) (by rw [e1, q1])) (early _ (by rw [e2]) (by rw [e2]) (by rw [e2, q2]))
  refine ⟨⟨⟨0, 0, 1⟩, 3/4 * (Real.pi / 2), (3/4 : ℝ) • 0, 0⟩, d, d1, _, _, ?_, duo_core_first _ (duo_moved h1 h2 none) hd,
    duo_core_first _ (duo_moved h1 h2 none) hd1, _, hrow, ?_⟩
  · unfold Motion.new; rw [if_pos ⟨by linarith, by linarith⟩, if_pos hax]
  · rw [diffract_columns hd]
    refine ⟨_, ⟨6, rfl, rfl⟩, ?_⟩
    rw [div_le_iff₀ (by positivity)]; linarith

end XRD
