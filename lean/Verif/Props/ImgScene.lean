import Verif.Props.Micro

/-! A concrete detector (200 × 200 length units at `x = 100`) and concrete peak tables, used beside the rendering theorems to show
that their hypotheses are met, and in the counterexamples. -/

namespace XRD
open V3 M3 Fl Spec
open scoped Classical

/-- detector with square pixels of side `p` -/
noncomputable def imgDet (p sg th : ℝ) : Detector :=
  ⟨⟨100, -100, -100⟩, ⟨100, 100, -100⟩, ⟨100, -100, 100⟩, 200, 200, p, p, ⟨0, 0, 1⟩, ⟨0, 1, 0⟩, ⟨-1, 0, 0⟩, sg, th, 13, true, true, true⟩

theorem imgDet_new (p sg th : ℝ) (hp : 0 < p) : Detector.new ⟨100, -100, -100⟩ ⟨100, 100, -100⟩ ⟨100, -100, 100⟩ .absent (.both p) sg th 13
    true true true = .ok (imgDet p sg th) := by
  have e1 : ((⟨100, -100, 100⟩ : V3) - ⟨100, -100, -100⟩) = ⟨0, 0, 200⟩ := by ext <;> simp; norm_num
  have e2 : ((⟨100, 100, -100⟩ : V3) - ⟨100, -100, -100⟩) = ⟨0, 200, 0⟩ := by ext <;> simp; norm_num
  have n1 : norm (⟨0, 0, 200⟩ : V3) = 200 := by
    unfold V3.norm nsq V3.dot; simp only; rw [show (0:ℝ) * 0 + 0 * 0 + 200 * 200 = 200 ^ 2 by norm_num]; exact Real.sqrt_sq (by norm_num)
  have n2 : norm (⟨0, 200, 0⟩ : V3) = 200 := by
    unfold V3.norm nsq V3.dot; simp only; rw [show (0:ℝ) * 0 + 200 * 200 + 0 * 0 = 200 ^ 2 by norm_num]; exact Real.sqrt_sq (by norm_num)
  have n3 : norm (⟨-1, 0, 0⟩ : V3) = 1 := by rw [norm_eq_one]; simp [nsq, V3.dot]
  have s1 : (1 / (200:ℝ)) • (⟨0, 0, 200⟩ : V3) = ⟨0, 0, 1⟩ := by ext <;> simp
  have s2 : (1 / (200:ℝ)) • (⟨0, 200, 0⟩ : V3) = ⟨0, 1, 0⟩ := by ext <;> simp
  have s3 : (1 / (1:ℝ)) • (⟨-1, 0, 0⟩ : V3) = ⟨-1, 0, 0⟩ := by ext <;> simp
  have c : cross (⟨0, 0, 1⟩ : V3) ⟨0, 1, 0⟩ = ⟨-1, 0, 0⟩ := by ext <;> simp [V3.cross]
  have c0 : (⟨-1, 0, 0⟩ : V3) ≠ 0 := by intro h; have := congrArg V3.x h; simp at this
  unfold Detector.new
  simp only [e1, e2, n1, n2, s1, s2, c, n3, s3, pixelSizes, if_neg c0]
  rw [if_neg (by push Not; exact ⟨hp, hp⟩)]
  rfl

/-- a ray along `x` hits at the expected place, at normal incidence -/
theorem imgDet_intersect (p sg th y z : ℝ) :
    (imgDet p sg th).intersect ⟨1, 0, 0⟩ ⟨0, y, z⟩ = (fin (z + 100), fin (y + 100), fin 0) := by
  unfold Detector.intersect imgDet
  have n1 : norm (⟨-1, 0, 0⟩ : V3) = 1 := by rw [norm_eq_one]; simp [nsq, V3.dot]
  have n2 : norm (⟨1, 0, 0⟩ : V3) = 1 := by rw [norm_eq_one]; simp [nsq, V3.dot]
  have d1 : V3.dot ((⟨100, -100, -100⟩ : V3) - ⟨0, y, z⟩) ⟨-1, 0, 0⟩ = -100 := by simp [V3.dot]
  have d2 : V3.dot (⟨1, 0, 0⟩ : V3) ⟨-1, 0, 0⟩ = -1 := by simp [V3.dot]
  simp only [n1, n2, d1, d2]
  rw [Fl.div_fin_ne (show (-1:ℝ) ≠ 0 by norm_num)]
  have hs : (-100 : ℝ) / -1 = 100 := by norm_num
  rw [hs]
  have hl : ¬ Fl.Lt (fin (100:ℝ)) (fin 0) := by simp
  simp only [Detector.alongRay, if_neg hl, Detector.project]
  simp only [Fl.mul_fin, Fl.add_fin, Fl.sub_fin, Fl.div_fin_ne (show (1:ℝ) ≠ 0 by norm_num), Fl.neg_fin]
  refine Prod.ext ?_ (Prod.ext ?_ ?_)
  · simp only; congr 1; ring
  · simp only; congr 1; ring
  · simp only
    have : ((1:ℝ) / 1 * -(-1 / 1) + 0 / 1 * -(0 / 1) + 0 / 1 * -(0 / 1)) = 1 := by norm_num
    rw [this]
    rw [Fl.arccos_fin (by norm_num) le_rfl, Real.arccos_one, Fl.mul_fin, zero_mul]

/-- a peak travelling along `x` from `(0, y, z)`, at time `t`, of a grain `g` with the given volume and Scherrer width -/
noncomputable def imgRow (g y z t vol fw : ℝ) : List Fl :=
  [fin g, fin 0, fin 1, fin 0, fin 0, fin 1, fin t, fin 1, fin 0, fin 0, fin 0, fin 0, fin 0, fin 1, fin 0, fin 0, fin 0, fin y, fin z,
   fin 1, fin 1, fin vol, fin 1, fin fw, fin 0]

/-- its row after intersection -/
noncomputable def imgHit (n : ℤ) (g y z t vol fw : ℝ) : List Fl :=
  imgRow g y z t vol fw ++ [fin (z + 100), fin (y + 100), fin 0, fin (frameOf n t), fin 1]

noncomputable def imgDict (rows : List (List Fl)) : PeaksDict := ⟨rows, peakColumns, ⟨1, 0, 0⟩, 1, ⟨0, 0, 1⟩, demoZ, demoBeam⟩

theorem imgDict_kept (p sg th : ℝ) (n : ℤ) (g y z t vol fw : ℝ) (hy : |y| ≤ 100) (hz : |z| ≤ 100) (rows : List (List Fl))
    (hlen : ∀ r ∈ rows, r.length = 25) :
    ((imgDet p sg th).peaksIntersection (imgDict (imgRow g y z t vol fw :: rows)) n).peaks =
      imgHit n g y z t vol fw :: ((imgDet p sg th).peaksIntersection (imgDict rows) n).peaks := by
  rw [abs_le] at hy hz
  have hri : (imgDet p sg th).rowIntersect (imgRow g y z t vol fw) = [fin (z + 100), fin (y + 100), fin 0] := by
    unfold Detector.rowIntersect
    have h1 : vecAt (imgRow g y z t vol fw) 13 = some ⟨1, 0, 0⟩ := rfl
    have h2 : vecAt (imgRow g y z t vol fw) 16 = some ⟨0, y, z⟩ := rfl
    rw [h1, h2]
    simp only [imgDet_intersect]
  have hint : (imgDet p sg th).rowIntensity (imgRow g y z t vol fw) = fin 1 := by
    rw [rowIntensity_spec]
    have h1 : (imgRow g y z t vol fw).getD 5 nan = fin 1 := rfl
    have h2 : (imgRow g y z t vol fw).getD 20 nan = fin 1 := rfl
    have h3 : (imgRow g y z t vol fw).getD 19 nan = fin 1 := rfl
    rw [h1, h2, h3]
    unfold Spec.intensity imgDet
    simp
  have h30 : row30 (imgDet p sg th) n (imgRow g y z t vol fw) = imgHit n g y z t vol fw := by
    unfold row30; rw [hri, hint]; rfl
  rw [peaksIntersection_rows _ _ _ (by
    intro r hr
    rcases List.mem_cons.mp hr with rfl | hr
    · rfl
    · exact hlen r hr), peaksIntersection_rows _ _ _ (by exact hlen)]
  have hcons : (imgDict (imgRow g y z t vol fw :: rows)).peaks = imgRow g y z t vol fw :: (imgDict rows).peaks := rfl
  rw [hcons, List.filter_cons, if_pos, List.map_cons, h30]
  rw [hri, hint]
  simp only [decide_eq_true_eq]
  refine ⟨⟨?_, ?_, ?_, ?_⟩, ?_, ?_⟩
  · simp; linarith
  · simp [imgDet]; linarith
  · simp; linarith
  · simp [imgDet]; linarith
  · simp
  · simp

/-- an interior hit at the centre of the detector: nearly all of its power is rendered, in particular a positive amount -/
example (env : RenderEnv) (mesh : TetraMesh) :
    ∃ t out, (imgDet 1 1 (1/10)).render env (imgDict [imgRow 0 0 0 (1/2) 2 0]) mesh 3 .micro none (1/1000) = .ok (some t, out) ∧
      1 < total 3 (imgDet 1 1 (1/10)).nz (imgDet 1 1 (1/10)).ny t := by
  have hn : (imgDet 1 1 (1/10)).nz = 200 := by unfold Detector.nz imgDet; norm_num
  have hny : (imgDet 1 1 (1/10)).ny = 200 := by unfold Detector.ny imgDet; norm_num
  have hp := imgDict_kept 1 1 (1/10) 3 0 0 0 (1/2) 2 0 (by norm_num) (by norm_num) [] (by simp)
  have hp0 : ((imgDet 1 1 (1/10)).peaksIntersection (imgDict []) 3).peaks = [] := rfl
  rw [hp0] at hp
  obtain ⟨t, out, h1, h2⟩ := C25_micro_keeps_interior_intensity (imgDet 1 1 (1/10)) env (imgDict [imgRow 0 0 0 (1/2) 2 0]) mesh 3
    none (1/1000) rfl (by intro r hr; simp only [imgDict, List.mem_singleton] at hr; subst hr; rfl)
    (by
      intro r hr; simp only [imgDict, List.mem_singleton] at hr; subst hr
      show (0:ℝ) ≤ 2; norm_num) 10
    (by
      have : Real.sqrt ((7 / 10) ^ 2 + (imgDet 1 1 (1/10)).sigma ^ 2) ≤ 2 := by
        rw [Real.sqrt_le_left (by norm_num)]; simp [imgDet]; norm_num
      have h7 : max 3 (3 * Real.sqrt ((7 / 10) ^ 2 + (imgDet 1 1 (1/10)).sigma ^ 2) + 1) ≤ 7 := max_le (by norm_num) (by linarith)
      linarith)
    (by
      intro r hr
      rw [show max (3:ℤ) 1 = 3 from rfl, hp, List.mem_singleton] at hr
      subst hr
      rw [hn, hny]
      have a : val hitColumns (imgHit 3 0 0 0 (1/2) 2 0) "zd" = 0 + 100 := rfl
      have b : val hitColumns (imgHit 3 0 0 0 (1/2) 2 0) "yd" = 0 + 100 := rfl
      rw [a, b]
      simp [imgDet]; norm_num)
  refine ⟨t, out, h1, lt_of_lt_of_le ?_ h2⟩
  have hout : out = (imgDet 1 1 (1/10)).peaksIntersection (imgDict [imgRow 0 0 0 (1/2) 2 0]) 3 := by
    have := render_micro_ok (D := imgDet 1 1 (1/10)) (env := env) (d := imgDict [imgRow 0 0 0 (1/2) 2 0]) (mesh := mesh) (frames := 3)
      (ml := none) (mi := 1/1000) (by intro r hr; simp only [imgDict, List.mem_singleton] at hr; subst hr; rfl)
    rw [this] at h1
    simp only [Except.ok.injEq, Prod.mk.injEq] at h1
    exact h1.2.symm
  have hc : out.columns = hitColumns := by rw [hout]; rfl
  rw [hc, hout, hp]
  have a : power hitColumns [imgHit 3 0 0 0 (1/2) 2 0] = 2 := by
    unfold power
    have a : val hitColumns (imgHit 3 0 0 0 (1/2) 2 0) "intensity_factors" = 1 := rfl
    have b : val hitColumns (imgHit 3 0 0 0 (1/2) 2 0) "volumes" = 2 := rfl
    simp only [List.map_cons, List.map_nil, List.sum_cons, List.sum_nil, a, b]; norm_num
  rw [a]
  norm_num

end XRD
