import Verif.Props.NanoFails
import Verif.Props.Exact4

/-! Property C67, exactly: when a nano rendering returns an image. -/

namespace XRD.Spec
open XRD

/-- The kernel of the peak `row`, sampled as in its batch, ends up with an even number of samples per side: the sampling grid of the batch has
an even number of samples, the first dark ring is at least half a pixel away, and no smaller centred window holds all of the kernel but the
threshold, so that the grid is kept whole. -/
def KeptEven (D : Detector) (j1 : ℝ → ℝ) (batch : List (List Fl)) (row : List Fl) : Prop :=
  1 / 2 ≤ D.firstZero row ∧ Even (Detector.axisLen (D.airyRadius (batch.map D.firstZero))) ∧
    ∀ m : ℕ, 1 ≤ m → m < Detector.axisLen (D.airyRadius (batch.map D.firstZero)) / 2 →
      windowMass (D.airyKernel j1 (D.airyRadius (batch.map D.firstZero)) (D.firstZero row)) m < 1 - D.threshold
end XRD.Spec

namespace XRD
open V3 M3 Fl Spec
open scoped Classical

theorem natMax_odd : ∀ (l : List ℕ) (a : ℕ), (∀ x ∈ l, Odd x) → Odd a → Odd (l.foldl (fun m k => max m k) a)
  | [], a, _, ha => ha
  | x :: xs, a, h, ha => by
    rw [List.foldl_cons]
    refine natMax_odd xs _ (fun y hy => h y (List.mem_cons_of_mem _ hy)) ?_
    rcases max_choice a x with e | e <;> rw [e]
    · exact ha
    · exact h x List.mem_cons_self

theorem natMax_ge : ∀ (l : List ℕ) (a : ℕ), a ≤ l.foldl (fun m k => max m k) a ∧ ∀ x ∈ l, x ≤ l.foldl (fun m k => max m k) a
  | [], a => ⟨le_rfl, by simp⟩
  | y :: ys, a => by
    rw [List.foldl_cons]
    obtain ⟨h1, h2⟩ := natMax_ge ys (max a y)
    refine ⟨(le_max_left _ _).trans h1, ?_⟩
    intro x hx
    rcases List.mem_cons.mp hx with rfl | hx
    · exact (le_max_right _ _).trans h1
    · exact h2 x hx

/-- parity of the cropped size -/
theorem crop_even_iff (k : Kernel) (th : ℝ) : Even (k.crop th).size ↔ Even k.size ∧ k.size / 2 ≤ cropSearch k th 1 (k.size / 2) := by
  have h1 := cropSearch_ge k th 1 (k.size / 2)
  have h2 : 1 ≤ k.size / 2 → cropSearch k th 1 (k.size / 2) ≤ k.size / 2 := cropSearch_le k th 1 (k.size / 2)
  have h3 : ¬ 1 ≤ k.size / 2 → cropSearch k th 1 (k.size / 2) = 1 := by
    intro h; rw [cropSearch, dif_neg (by omega)]
  unfold Kernel.crop
  simp only
  generalize cropSearch k th 1 (k.size / 2) = m at *
  generalize k.size = s at *
  rw [Nat.even_iff, Nat.even_iff]
  by_cases hs : 1 ≤ s / 2
  · have := h2 hs
    omega
  · have := h3 hs
    omega

/-- `airyKernels` succeeds exactly if the cropped kernels all have an odd or all have an even number of samples. -/
theorem airyKernels_ok_iff (D : Detector) (j1 : ℝ → ℝ) (zs : List ℝ) :
    (∃ ks, D.airyKernels j1 zs = .ok ks) ↔ ∀ z ∈ zs, ∀ z' ∈ zs,
      (Even ((D.airyKernel j1 (D.airyRadius zs) z).crop D.threshold).size ↔ Even ((D.airyKernel j1 (D.airyRadius zs) z').crop D.threshold).size) := by
  unfold Detector.airyKernels
  dsimp only
  set R := D.airyRadius zs with hR
  set sized : List (Kernel × ℕ) := (zs.map fun fz => D.airyKernel j1 R fz).map fun k => (k.crop D.threshold, 2 * cropSearch k D.threshold 1 (k.size / 2) + 1) with hsz
  have hmem : ∀ q ∈ sized, ∃ z ∈ zs, q = ((D.airyKernel j1 R z).crop D.threshold,
      2 * cropSearch (D.airyKernel j1 R z) D.threshold 1 ((D.airyKernel j1 R z).size / 2) + 1) := by
    intro q hq
    simp only [hsz, List.map_map, List.mem_map, Function.comp] at hq
    obtain ⟨z, hz, rfl⟩ := hq
    exact ⟨z, hz, rfl⟩
  have hmem' : ∀ z ∈ zs, ((D.airyKernel j1 R z).crop D.threshold,
      2 * cropSearch (D.airyKernel j1 R z) D.threshold 1 ((D.airyKernel j1 R z).size / 2) + 1) ∈ sized := by
    intro z hz
    simp only [hsz, List.map_map, List.mem_map, Function.comp]
    exact ⟨z, hz, rfl⟩
  have hfold : sized.foldl (fun m k => max m k.2) 0 = (sized.map Prod.snd).foldl (fun m k => max m k) 0 :=
    (List.foldl_map (f := Prod.snd) (g := fun m k => max m k) (l := sized)).symm
  set M := sized.foldl (fun m k => max m k.2) 0 with hM
  -- sizes after padding
  have hle : ∀ q ∈ sized, q.1.size ≤ q.2 ∧ q.2 ≤ M ∧ Odd q.2 := by
    intro q hq
    obtain ⟨z, hz, e⟩ := hmem q hq
    refine ⟨by rw [e]; exact crop_size_le _ _, ?_, by rw [e]; exact ⟨_, rfl⟩⟩
    rw [hfold]
    exact (natMax_ge _ 0).2 _ (List.mem_map_of_mem hq)
  have hodd : sized ≠ [] → Odd M := by
    intro hne
    rw [hfold]
    cases h : sized.map Prod.snd with
    | nil => exact absurd (List.map_eq_nil_iff.mp h) hne
    | cons a l =>
      rw [List.foldl_cons]
      have hall : ∀ x ∈ a :: l, Odd x := by
        intro x hx
        rw [← h] at hx
        obtain ⟨q, hq, rfl⟩ := List.mem_map.mp hx
        exact (hle q hq).2.2
      apply natMax_odd
      · exact fun x hx => hall x (List.mem_cons_of_mem _ hx)
      · rw [Nat.zero_max]; exact hall a List.mem_cons_self
  have hpad : ∀ q ∈ sized, (if q.1.size < M then q.1.pad ((M - q.1.size) / 2) else q.1).size = if Even q.1.size then M - 1 else M := by
    intro q hq
    obtain ⟨h1, h2, h3⟩ := hle q hq
    have h4 := hodd (List.ne_nil_of_mem hq)
    rw [Nat.odd_iff] at h4
    have : (if q.1.size < M then q.1.pad ((M - q.1.size) / 2) else q.1).size = if q.1.size < M then q.1.size + 2 * ((M - q.1.size) / 2) else q.1.size := by
      split_ifs <;> rfl
    rw [this]
    simp only [Nat.even_iff]
    split_ifs <;> omega
  constructor
  · rintro ⟨ks, h⟩ z hz z' hz'
    by_contra hne
    rw [if_pos] at h
    · cases h
    refine ⟨_, List.mem_map.mpr ⟨_, hmem' z hz, rfl⟩, _, List.mem_map.mpr ⟨_, hmem' z' hz', rfl⟩, ?_⟩
    rw [hpad _ (hmem' z hz), hpad _ (hmem' z' hz')]
    have h4 := hodd (List.ne_nil_of_mem (hmem' z hz))
    rw [Nat.odd_iff] at h4
    dsimp only
    split_ifs with h1 h2 h2
    · exact absurd (iff_of_true h1 h2) hne
    · omega
    · omega
    · exact absurd (iff_of_false h1 h2) hne
  · intro hall
    rw [if_neg]
    · exact ⟨_, rfl⟩
    rintro ⟨k, hk, k', hk', hne⟩
    obtain ⟨q, hq, rfl⟩ := List.mem_map.mp hk
    obtain ⟨q', hq', rfl⟩ := List.mem_map.mp hk'
    apply hne
    rw [hpad q hq, hpad q' hq']
    obtain ⟨z, hz, rfl⟩ := hmem q hq
    obtain ⟨z', hz', rfl⟩ := hmem q' hq'
    simp only [hall z hz z' hz']

theorem nanoPairs_ok_iff (D : Detector) (j1 : ℝ → ℝ) : ∀ bs : List (List (List Fl)),
    (∃ rks, nanoPairs D j1 bs = .ok rks) ↔ ∀ b ∈ bs, ∃ ks, D.airyKernels j1 (b.map D.firstZero) = .ok ks
  | [] => by simp [nanoPairs]
  | b :: bs => by
    have ih := nanoPairs_ok_iff D j1 bs
    unfold nanoPairs
    rw [List.forall_mem_cons, ← ih]
    cases h : D.airyKernels j1 (b.map D.firstZero) with
    | error e => simp
    | ok ks =>
      cases h2 : nanoPairs D j1 bs with
      | error e => simp [Except.map]
      | ok r => simp [Except.map]

theorem kept_even (D : Detector) (hs : 0 < D.sigma) (hm : 0 ≤ D.maxRadius) (j1 : ℝ → ℝ) (batch : List (List Fl)) (row : List Fl)
    (hb : batch ≠ []) :
    Even ((D.airyKernel j1 (D.airyRadius (batch.map D.firstZero)) (D.firstZero row)).crop D.threshold).size ↔ KeptEven D j1 batch row := by
  rw [crop_even_iff]
  unfold KeptEven
  set R := D.airyRadius (batch.map D.firstZero)
  have hsub := airyKernel_subUnit hs hm j1 R (D.firstZero row)
  by_cases hz : D.firstZero row < 1 / 2
  · have : (D.airyKernel j1 R (D.firstZero row)).size = D.gaussKernel.size := by
      unfold Detector.airyKernel; rw [if_pos hz]; rfl
    obtain ⟨r, hr, -⟩ := C28_point_spread_kernel D hs hm
    rw [this, hr]
    constructor
    · rintro ⟨h, -⟩; rw [Nat.even_iff] at h; omega
    · rintro ⟨h, -⟩; linarith
  · have hsize : (D.airyKernel j1 R (D.firstZero row)).size = Detector.axisLen R := by
      unfold Detector.airyKernel; rw [if_neg hz]; rfl
    have hR : 8 ≤ R := by
      cases hb' : batch with
      | nil => exact absurd hb' hb
      | cons x xs =>
        obtain ⟨k, -, e, -⟩ := C33_batch_radius D (D.firstZero x) (xs.map D.firstZero)
        have e' : R = _ := (congrArg (fun b : List (List Fl) => D.airyRadius (b.map D.firstZero)) hb').trans e
        rw [e']
        apply le_min _ (by norm_num)
        have : (1 : ℝ) ≤ 2 ^ k := one_le_pow₀ (by norm_num)
        have h8 := le_max_right (4 * Detector.maxL (D.firstZero x) (xs.map D.firstZero)) 8
        nlinarith
    have hlen : 17 ≤ Detector.axisLen R := by
      unfold Detector.axisLen
      have : ((17 : ℕ) : ℝ) ≤ (⌈2 * R + 1⌉₊ : ℕ) := by
        refine le_trans ?_ (Nat.le_ceil _)
        push_cast; linarith
      exact_mod_cast this
    obtain ⟨a1, a2, a3, a4⟩ := cropSearch_spec hsub.1 D.threshold 1 ((D.airyKernel j1 R (D.firstZero row)).size / 2) (by rw [hsize]; omega)
    rw [hsize] at *
    refine ⟨fun ⟨h1, h3⟩ => ⟨not_lt.mp hz, h1, fun m h4 h5 => a4 m h4 (by omega)⟩, fun ⟨_, h1, h2⟩ => ⟨h1, ?_⟩⟩
    by_contra hlt
    rcases a3 with h | h
    · omega
    · have := h2 _ a1 (by omega)
      linarith

/-- **C67**, exact: a nano rendering returns an image if and only if in no batch one kernel ends up with an even and another one with an odd
number of samples; and when it does not, it raises `RuntimeError`. -/
theorem C67_nano_succeeds_iff (D : Detector) (hs : 0 < D.sigma) (hm : 0 ≤ D.maxRadius) (env : RenderEnv) (ha : IsArgsort env.argsortDesc)
    (d : PeaksDict) (mesh : TetraMesh) (frames : ℤ) (ml : Option ℝ) (mi : ℝ) :
    ((∃ t out, D.render env d mesh frames .nano ml mi = .ok (some t, out)) ↔
      ∀ batch ∈ D.nanoBatches (env.freeGb * 1024 ^ 3)
          ((env.argsortDesc ((D.peaksIntersection d (max frames 1)).peaks.map D.airyMemory)).map fun i =>
            (D.peaksIntersection d (max frames 1)).peaks.getD i []),
        ∀ r ∈ batch, ∀ r' ∈ batch, (KeptEven D env.j1 batch r ↔ KeptEven D env.j1 batch r')) ∧
    ((¬ ∃ t out, D.render env d mesh frames .nano ml mi = .ok (some t, out)) →
      D.render env d mesh frames .nano ml mi = .error .runtimeError) := by
  rw [render_nano, renderNano_eq ha]
  have hb : ∀ S : List (List Fl), (∃ rks, nanoPairs D env.j1 (D.nanoBatches (env.freeGb * 1024 ^ 3) S) = .ok rks) ↔
      ∀ batch ∈ D.nanoBatches (env.freeGb * 1024 ^ 3) S, ∀ r ∈ batch, ∀ r' ∈ batch, (KeptEven D env.j1 batch r ↔ KeptEven D env.j1 batch r') := by
    intro S
    rw [nanoPairs_ok_iff]
    refine forall₂_congr fun batch _ => ?_
    rw [airyKernels_ok_iff, List.forall_mem_map]
    refine forall₂_congr fun r hr => ?_
    rw [List.forall_mem_map]
    refine forall₂_congr fun r' _ => ?_
    rw [kept_even D hs hm env.j1 batch r (List.ne_nil_of_mem hr), kept_even D hs hm env.j1 batch r' (List.ne_nil_of_mem hr)]
  have hS : (env.argsortDesc ((D.peaksIntersection d (max frames 1)).peaks.map D.airyMemory)).map (fun i =>
      (D.peaksIntersection d (max frames 1)).peaks.getD i []) =
      sortedRows env.argsortDesc D.airyMemory (D.peaksIntersection d (max frames 1)).peaks := rfl
  rw [hS, ← hb]
  have herr : ∀ bs : List (List (List Fl)), ∀ e, nanoPairs D env.j1 bs = .error e → e = .runtimeError := by
    intro bs
    induction bs with
    | nil => intro e h; cases h
    | cons b bs ih =>
      intro e h
      unfold nanoPairs at h
      cases h1 : D.airyKernels env.j1 (b.map D.firstZero) with
      | error e' =>
        rw [h1] at h
        obtain rfl := Except.error.inj h
        unfold Detector.airyKernels at h1
        dsimp only at h1
        split_ifs at h1
        exact (Except.error.inj h1).symm
      | ok ks =>
        rw [h1] at h
        cases h2 : nanoPairs D env.j1 bs with
        | error e' =>
          rw [h2] at h
          obtain rfl := Except.error.inj h
          exact ih _ h2
        | ok r => rw [h2] at h; cases h
  cases h : nanoPairs D env.j1 (D.nanoBatches (env.freeGb * 1024 ^ 3)
      (sortedRows env.argsortDesc D.airyMemory (D.peaksIntersection d (max frames 1)).peaks)) with
  | error e =>
    obtain rfl := herr _ _ h
    refine ⟨⟨?_, ?_⟩, fun _ => rfl⟩
    · rintro ⟨t, out, h⟩; cases h
    · rintro ⟨r, h⟩; cases h
  | ok rks => exact ⟨⟨fun _ => ⟨rks, rfl⟩, fun _ => ⟨_, _, rfl⟩⟩, fun hn => absurd ⟨_, _, rfl⟩ hn⟩

/-- Both kinds of kernels occur, even in the same batch. -/
example (j1 : ℝ → ℝ) (hj : BesselFacts j1) (s : List ℝ → List ℕ) (hs : IsArgsort s) :
    ∃ (D : Detector) (batch : List (List Fl)), 0 < D.sigma ∧ 0 ≤ D.maxRadius ∧ ∃ r ∈ batch, ∃ r' ∈ batch, KeptEven D j1 batch r ∧ ¬ KeptEven D j1 batch r' := by
  have h1 : (0 : ℝ) < nanoDet.sigma := by norm_num [nanoDet, imgDet]
  have h2 : (0 : ℤ) ≤ nanoDet.maxRadius := by norm_num [nanoDet, imgDet]
  have h := torch_cat_error j1 hj s hs (fun _ _ => none) (fun _ _ => []) ⟨[], [], [], [], [], [], [], [], 0⟩ none 0
  have h3 := (C67_nano_succeeds_iff nanoDet h1 h2 ⟨j1, s, 1, fun _ _ => none, fun _ _ => []⟩ hs (imgDict [evenRow, dotRow])
    ⟨[], [], [], [], [], [], [], [], 0⟩ 1 none 0).1
  have h4 : ¬ ∃ t out, nanoDet.render ⟨j1, s, 1, fun _ _ => none, fun _ _ => []⟩ (imgDict [evenRow, dotRow]) ⟨[], [], [], [], [], [], [], [], 0⟩ 1 .nano none 0 =
      .ok (some t, out) := by
    rintro ⟨t, out, e⟩; rw [h] at e; cases e
  rw [h3] at h4
  push Not at h4
  obtain ⟨batch, -, r, hr, r', hr', hne⟩ := h4
  refine ⟨nanoDet, batch, h1, h2, ?_⟩
  rcases hne with ⟨a, b⟩ | ⟨a, b⟩
  · exact ⟨r, hr, r', hr', a, b⟩
  · exact ⟨r', hr', r, hr, b, a⟩

end XRD
