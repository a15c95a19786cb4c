import Verif.Props.Clip
import Verif.Props.Persist
import Verif.Props.Limits
import Verif.Props.Nano2

/-! Exact extents of C33, C36, C38 and C45. -/

namespace XRD
open V3 M3 Fl Spec
open scoped Classical

theorem filter_times_nonempty {H : Hull} {vs : List V3} (hH : IsHull H vs) (hvs : vs ≠ []) {u : V3} (hu : norm u = 1) (p : V3) :
    Detector.planeTimes (H.equations.filter fun e => e.n.dot u < 0) p u ≠ [] ∧
    Detector.planeTimes (H.equations.filter fun e => e.n.dot u > 0) p u ≠ [] := by
  obtain ⟨v, hv⟩ := List.exists_mem_of_ne_nil vs hvs
  have hv' : v ∈ convexHull ℝ {w | w ∈ vs} := subset_convexHull ℝ _ hv
  obtain ⟨h1, h2⟩ := times_nonempty hH hu (p := v) (fun e he _ => (hH.faces v).mpr hv' e he)
  unfold Detector.planeTimes at *
  simp only [ne_eq, List.map_eq_nil_iff] at *
  exact ⟨h1, h2⟩

/-- **C36**, exact value: for every line and unit direction the clip length is the length of the part of the line on the inner side of all
face planes that are not parallel to the line (a length of at most `10⁻¹²` counting as none): parallel faces are ignored. -/
theorem C36_clip_value (H : Hull) (vs : List V3) (hH : IsHull H vs) (hvs : vs ≠ []) (p u : V3) (hu : norm u = 1) :
    ∃ a b : ℝ, (∀ t : ℝ, (∀ e ∈ H.equations, e.n.dot u ≠ 0 → e.n.dot (p + t • u) + e.d ≤ 0) ↔ a ≤ t ∧ t ≤ b) ∧
      Detector.clipLength H.equations p u = if a + 1 / 10 ^ 12 < b then b - a else 0 := by
  obtain ⟨h1, h2⟩ := filter_times_nonempty hH hvs hu p
  set E := H.equations.filter fun e => e.n.dot u ≠ 0 with hE
  have hunit : ∀ e ∈ E, norm e.n = 1 := fun e he => hH.unit e (List.mem_of_mem_filter he)
  have hin := line_inside E hunit p u (by
    intro e he h0
    rw [hE, List.mem_filter] at he
    simp [h0] at he)
  have f1 : (E.filter fun e => e.n.dot u < 0) = H.equations.filter fun e => e.n.dot u < 0 := by
    rw [hE, List.filter_filter]
    apply List.filter_congr
    intro e _
    by_cases h : e.n.dot u < 0
    · simp [h, h.ne]
    · simp [h]
  have f2 : (E.filter fun e => e.n.dot u > 0) = H.equations.filter fun e => e.n.dot u > 0 := by
    rw [hE, List.filter_filter]
    apply List.filter_congr
    intro e _
    by_cases h : e.n.dot u > 0
    · simp [h, h.ne']
    · simp [h]
  unfold Detector.clipLength
  cases ha : Detector.planeTimes (H.equations.filter fun e => e.n.dot u < 0) p u with
  | nil => exact absurd ha h1
  | cons a as =>
    cases hb : Detector.planeTimes (H.equations.filter fun e => e.n.dot u > 0) p u with
    | nil => exact absurd hb h2
    | cons b bs =>
      refine ⟨Detector.maxL a as, Detector.minL b bs, fun t => ?_, rfl⟩
      have e0 : (∀ e ∈ H.equations, e.n.dot u ≠ 0 → e.n.dot (p + t • u) + e.d ≤ 0) ↔ ∀ e ∈ E, e.n.dot (p + t • u) + e.d ≤ 0 := by
        rw [hE]
        simp [List.mem_filter]
      rw [e0, hin, f1, f2, ha, hb]
      constructor
      · rintro ⟨h3, h4⟩
        exact ⟨h3 _ (maxL_mem a as), h4 _ (minL_mem b bs)⟩
      · rintro ⟨h3, h4⟩
        constructor
        · intro x hx
          rcases List.mem_cons.mp hx with rfl | hx
          · exact le_maxL.1.trans h3
          · exact (le_maxL.2 x hx).trans h3
        · intro x hx
          rcases List.mem_cons.mp hx with rfl | hx
          · exact h4.trans minL_le.1
          · exact h4.trans (minL_le.2 x hx)

/-- **C36**, exact extent: the clip length is the chord length (a chord of at most `10⁻¹²` counting as none) if and only if the line is on
the inner side of every face plane parallel to it, or the clip length is zero. -/
theorem C36_clip_right_iff (H : Hull) (vs : List V3) (hH : IsHull H vs) (p u : V3) (hu : norm u = 1) :
    ((∃ a b : ℝ, (∀ t : ℝ, p + t • u ∈ convexHull ℝ {v | v ∈ vs} ↔ a ≤ t ∧ t ≤ b) ∧ a + 1 / 10 ^ 12 < b ∧
        Detector.clipLength H.equations p u = b - a) ∨
      ((∀ s t : ℝ, p + s • u ∈ convexHull ℝ {v | v ∈ vs} → p + t • u ∈ convexHull ℝ {v | v ∈ vs} → t ≤ s + 1 / 10 ^ 12) ∧
        Detector.clipLength H.equations p u = 0)) ↔
    (∀ e ∈ H.equations, e.n.dot u = 0 → e.n.dot p + e.d ≤ 0) ∨ Detector.clipLength H.equations p u = 0 := by
  have hin : ∀ t : ℝ, p + t • u ∈ convexHull ℝ {v | v ∈ vs} → ∀ e ∈ H.equations, e.n.dot u = 0 → e.n.dot p + e.d ≤ 0 := by
    intro t ht e he h0
    have := (hH.faces _).mpr ht e he
    rw [dot_line, h0, mul_zero, add_zero] at this
    exact this
  constructor
  · rintro (⟨a, b, h1, h2, -⟩ | ⟨-, h⟩)
    · left
      exact hin a ((h1 a).mpr ⟨le_rfl, by linarith [show (0:ℝ) < 1 / 10 ^ 12 by positivity]⟩)
    · exact Or.inr h
  · rintro (h | h)
    · exact C36_clip_length_partial H vs hH p u hu h
    · by_cases hpar : ∀ e ∈ H.equations, e.n.dot u = 0 → e.n.dot p + e.d ≤ 0
      · exact C36_clip_length_partial H vs hH p u hu hpar
      · right
        refine ⟨fun s t hs _ => absurd (hin s hs) hpar, h⟩

/-- **C38**, exact limits: without a detector `diffract` uses the user's limits; with a detector it succeeds in choosing limits exactly when
the wrapping cone of the detector is a finite angle above a non-negative user minimum, and then uses the user's minimum and the cone: the
user's maximum has no influence. -/
theorem C38_limits_used (p : Polycrystal) (b : Beam) (lo hi lo' hi' : ℝ) (D : Detector) :
    p.limits b lo hi none = .ok (lo, hi) ∧
    (p.limits b lo hi (some D) = .ok (lo', hi') ↔
      lo' = lo ∧ D.wrappingCone b.waveVector (p.sourcePoint b) = fin hi' ∧ 0 ≤ lo ∧ lo < hi') := by
  refine ⟨rfl, ?_⟩
  unfold Polycrystal.limits Polycrystal.braggBounds
  constructor
  · intro h
    dsimp only at h
    split at h
    · rename_i c hc
      split_ifs at h with h1 h2
      obtain ⟨rfl, rfl⟩ := Prod.mk.inj (Except.ok.inj h)
      exact ⟨rfl, hc, h1, h2⟩
    · cases h
  · rintro ⟨rfl, h1, h2, h3⟩
    dsimp only
    rw [h1]
    simp only [if_pos h2, if_pos h3]

/-- **C38** With a detector the user's maximum has no influence at all on the outcome of the call. -/
theorem C38_maximum_without_influence (x : Xfab) (p : Polycrystal) (b : Beam) (m : Motion) (lo hi hi2 : ℝ) (D : Detector) :
    p.diffract x b m lo hi (some D) = p.diffract x b m lo hi2 (some D) := rfl

/-- **C45**, exact extent: the two files are written under one stem, whatever was on disk before, if and only if the path has no extension
`.pc` or its only dot is the one of the extension. -/
theorem C45_beside_iff (io : MeshIO) (p : Polycrystal) (path : Path) :
    (∃ stem, (path = stem ∨ path = stem ++ ".pc".toList) ∧ ∀ fs : FS,
      p.save io path true fs (stem ++ ".pc".toList) = some (.polycrystal p) ∧
      p.save io path true fs (stem ++ ".xdmf".toList) = some (Spec.visualOf p)) ↔
    (¬ ".pc".toList <:+ path ∨ ∃ stem, path = stem ++ ".pc".toList ∧ '.' ∉ stem) := by
  constructor
  · rintro ⟨stem, hstem, hs⟩
    by_contra hcon
    push Not at hcon
    obtain ⟨⟨st, hst⟩, h2⟩ := hcon
    have hdot := h2 st hst.symm
    rcases hstem with rfl | h
    · have := (hs (fun _ => none)).1
      have h1 : polySavePaths path = (path, beforeDot path ++ ".xdmf".toList) := by
        unfold polySavePaths; rw [if_neg (not_not.mpr ⟨st, hst⟩)]
      have hx : savePath ".xdmf" (beforeDot path ++ ".xdmf".toList) = beforeDot path ++ ".xdmf".toList := by
        unfold savePath; rw [if_neg (not_not.mpr (List.suffix_append _ _))]
      have hpc := pc_ext (List.suffix_append path ".pc".toList)
      push Not at hpc
      unfold Polycrystal.save TetraMesh.save at this
      rw [h1, if_pos rfl] at this
      dsimp only at this
      unfold FS.write at this
      rw [hx, Function.update_of_ne, Function.update_of_ne, Function.update_of_ne] at this
      rotate_left
      · intro h
        have := congrArg List.length h
        simp at this
      · intro h; exact hpc.1 (h ▸ List.suffix_append _ _)
      · intro h; exact hpc.2 (h ▸ io.companion_ext _)
      cases this
    · have e : st = stem := List.append_cancel_right (hst.trans h)
      subst e
      have := (hs (fun _ => none)).2
      rw [h, C45_dotted_path_fails io _ p st hdot] at this
      cases this
  · exact C45_beside_partial io p path

/-- **C33**, exact: the sampling grid of a batch has a sample at distance zero from its centre, and that is its middle sample, if and only if
the sampling radius of the batch is a whole number of pixels. -/
theorem C33_grid_centre_iff (r : ℝ) (hr : 0 ≤ r) :
    ((∃ i < Detector.axisLen r, Detector.axisAt r i = 0) ↔ ∃ n : ℕ, r = n) ∧
    (Detector.axisAt r (Detector.axisLen r / 2) = 0 ↔ ∃ n : ℕ, r = n) := by
  have key : ∀ n : ℕ, r = n → Detector.axisLen r / 2 = n := by
    rintro n rfl; rw [axisLen_nat]; omega
  unfold Detector.axisAt
  refine ⟨⟨?_, ?_⟩, ⟨?_, ?_⟩⟩
  · rintro ⟨i, -, h⟩; exact ⟨i, by linarith⟩
  · rintro ⟨n, h⟩
    refine ⟨n, ?_, by rw [h]; ring⟩
    rw [h, axisLen_nat]; omega
  · intro h; exact ⟨_, by linarith⟩
  · rintro ⟨n, h⟩
    rw [key n h, h]; ring

/-- **C33** The sampling radius of a batch is four times its largest first zero, at least 8, doubled some times, and at most 128: so with
first zeros that are multiples of a quarter pixel, or at most two pixels, the grid is centred. -/
theorem C33_batch_radius (D : Detector) (z : ℝ) (zs : List ℝ) :
    ∃ k : ℕ, k ≤ 5 ∧ D.airyRadius (z :: zs) = min (2 ^ k * max (4 * Detector.maxL z zs) 8) 128 ∧
      ((∃ n : ℤ, 4 * Detector.maxL z zs = n) → ∃ n : ℕ, D.airyRadius (z :: zs) = n) := by
  have loop : ∀ (fuel : ℕ) (r : ℝ), ∃ k : ℕ, k ≤ fuel ∧ D.airyRadiusLoop fuel r = 2 ^ k * r := by
    intro fuel
    induction fuel with
    | zero => intro r; exact ⟨0, le_rfl, by simp [Detector.airyRadiusLoop]⟩
    | succ n ih =>
      intro r
      unfold Detector.airyRadiusLoop
      split_ifs
      · exact ⟨0, by omega, by simp⟩
      · obtain ⟨k, hk, h⟩ := ih (r * 2)
        exact ⟨k + 1, by omega, by rw [h]; ring⟩
      · exact ⟨0, by omega, by simp⟩
  obtain ⟨k, hk, h⟩ := loop 5 (max (4 * Detector.maxL z zs) 8)
  have e : D.airyRadius (z :: zs) = min (2 ^ k * max (4 * Detector.maxL z zs) 8) 128 := by
    unfold Detector.airyRadius
    simp only [h]
    split_ifs with hc
    · rw [min_eq_right hc.le]
    · rw [min_eq_left (not_lt.mp hc)]
  refine ⟨k, hk, e, ?_⟩
  rintro ⟨n, hn⟩
  rw [e, hn]
  refine ⟨(min (2 ^ k * max n 8) 128 : ℤ).toNat, ?_⟩
  have h0 : (0:ℤ) ≤ min (2 ^ k * max n 8) 128 := by
    refine le_min ?_ (by norm_num)
    have : (0:ℤ) ≤ max n 8 := le_trans (by norm_num) (le_max_right _ _)
    positivity
  have : (((min (2 ^ k * max n 8) 128 : ℤ).toNat : ℕ) : ℝ) = ((min (2 ^ k * max n 8) 128 : ℤ) : ℝ) := by
    have := Int.toNat_of_nonneg h0
    exact_mod_cast congrArg (fun z : ℤ => (z : ℝ)) this
  rw [this]
  push_cast
  rfl

end XRD
