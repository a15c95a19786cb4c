import Verif.Lemmas.Deposit

/-! Lemmas about the nano renderer. -/

namespace XRD
open V3 M3 Fl Spec
open scoped Classical

/-- the batches of the nano loop, for an arbitrary cost function -/
noncomputable def batchesBy {α : Type} (cost : α → ℝ) (avail : ℝ) : List α → List (List α)
  | [] => []
  | r :: rs =>
    let m := max 1 ((List.range (r :: rs).length).filter fun i : ℕ => (((r :: rs).take (i + 1)).map cost).sum ≤ avail).length
    (r :: rs).take m :: batchesBy cost avail ((r :: rs).drop m)
termination_by l => l.length
decreasing_by
  simp only [List.length_drop, List.length_cons]
  have : 1 ≤ m := le_max_left _ _
  omega

theorem nanoBatches_eq (D : Detector) (avail : ℝ) {α : Type} (g : α → List Fl) (l : List α) :
    D.nanoBatches avail (l.map g) = (batchesBy (fun a => D.airyMemory (g a)) avail l).map (List.map g) := by
  induction hn : l.length using Nat.strong_induction_on generalizing l with
  | _ n ih =>
    cases l with
    | nil => simp [Detector.nanoBatches, batchesBy]
    | cons r rs =>
      have hm : D.nanoBatchSize avail ((r :: rs).map g) =
          max 1 ((List.range (r :: rs).length).filter fun i : ℕ => (((r :: rs).take (i + 1)).map fun a => D.airyMemory (g a)).sum ≤ avail).length := by
        unfold Detector.nanoBatchSize
        rw [List.length_map]
        congr 3
        funext i
        rw [← List.map_take, List.map_map]
        rfl
      have hb : D.nanoBatches avail ((r :: rs).map g) = ((r :: rs).map g).take (D.nanoBatchSize avail ((r :: rs).map g)) ::
          D.nanoBatches avail (((r :: rs).map g).drop (D.nanoBatchSize avail ((r :: rs).map g))) := by
        rw [List.map_cons, Detector.nanoBatches]
      rw [hb, hm, batchesBy]
      set m := max 1 ((List.range (r :: rs).length).filter fun i : ℕ => (((r :: rs).take (i + 1)).map fun a => D.airyMemory (g a)).sum ≤ avail).length
      have hm1 : 1 ≤ m := le_max_left _ _
      rw [← List.map_take, ← List.map_drop]
      rw [ih ((r :: rs).drop m).length (by rw [← hn, List.length_drop, List.length_cons]; omega) _ rfl]
      rfl

theorem batchesBy_flatten {α : Type} (cost : α → ℝ) (avail : ℝ) (l : List α) : (batchesBy cost avail l).flatten = l := by
  induction hn : l.length using Nat.strong_induction_on generalizing l with
  | _ n ih =>
    cases l with
    | nil => simp [batchesBy]
    | cons r rs =>
      rw [batchesBy]
      set m := max 1 ((List.range (r :: rs).length).filter fun i : ℕ => (((r :: rs).take (i + 1)).map cost).sum ≤ avail).length
      have hm1 : 1 ≤ m := le_max_left _ _
      rw [List.flatten_cons, ih ((r :: rs).drop m).length (by rw [← hn, List.length_drop, List.length_cons]; omega) _ rfl,
        List.take_append_drop]

theorem batchesBy_ne_nil {α : Type} (cost : α → ℝ) (avail : ℝ) (l : List α) : ∀ b ∈ batchesBy cost avail l, b ≠ [] := by
  induction hn : l.length using Nat.strong_induction_on generalizing l with
  | _ n ih =>
    cases l with
    | nil => simp [batchesBy]
    | cons r rs =>
      rw [batchesBy]
      set m := max 1 ((List.range (r :: rs).length).filter fun i : ℕ => (((r :: rs).take (i + 1)).map cost).sum ≤ avail).length
      have hm1 : 1 ≤ m := le_max_left _ _
      intro b hb
      rcases List.mem_cons.mp hb with rfl | hb
      · intro h
        have := congrArg List.length h
        simp only [List.length_take, List.length_cons, List.length_nil] at this
        omega
      · exact ih ((r :: rs).drop m).length (by rw [← hn, List.length_drop, List.length_cons]; omega) _ rfl b hb

theorem nanoBatches_flatten (D : Detector) (avail : ℝ) (l : List (List Fl)) : (D.nanoBatches avail l).flatten = l := by
  have := nanoBatches_eq D avail id l
  rw [List.map_id] at this
  rw [this]
  have : List.map (List.map (id : List Fl → List Fl)) (batchesBy (fun a => D.airyMemory (id a)) avail l) =
      batchesBy (fun a => D.airyMemory (id a)) avail l := by
    rw [List.map_id_fun]; simp
  rw [this, batchesBy_flatten]

/-! ### one batch -/

/-- what one batch adds to frame `f` -/
noncomputable def nanoAdd (D : Detector) (rks : List (List Fl × Kernel)) (f : ℕ) : List (Kernel × ℝ × ℝ) :=
  (rks.filter fun rk => rcol rk.1 28 = (f : ℝ)).map fun rk =>
    (Detector.scaleKernel rk.2 (rcol rk.1 29 * rcol rk.1 21), rcol rk.1 25 / D.pz, rcol rk.1 26 / D.py)

theorem nanoBatch_eq (D : Detector) (j1 : ℝ → ℝ) (n : ℕ) (t : Stack) (rows : List (List Fl)) :
    D.nanoBatch j1 n t rows = (D.airyKernels j1 (rows.map D.firstZero)).map fun ks => fun f i j =>
      if f < n then t f i j + cornerSum D.nz D.ny (allCorners (nanoAdd D (rows.zip ks) f)) i j else t f i j := by
  unfold Detector.nanoBatch
  cases D.airyKernels j1 (rows.map D.firstZero) with
  | error e => rfl
  | ok ks =>
    show Except.ok _ = Except.ok _
    congr 1
    funext f i j
    by_cases hf : f < n
    · simp only [if_pos hf, depositKernels_eq]; rfl
    · simp only [if_neg hf]

/-- pairs of rows and kernels of all batches, or the first error -/
noncomputable def nanoPairs (D : Detector) (j1 : ℝ → ℝ) : List (List (List Fl)) → Except PyErr (List (List Fl × Kernel))
  | [] => .ok []
  | b :: bs => match D.airyKernels j1 (b.map D.firstZero) with
    | .error e => .error e
    | .ok ks => (nanoPairs D j1 bs).map fun rest => b.zip ks ++ rest

theorem nanoLoop_eq (D : Detector) (j1 : ℝ → ℝ) (n : ℕ) (t : Stack) (bs : List (List (List Fl))) :
    D.nanoLoop j1 n t bs = (nanoPairs D j1 bs).map fun rks => fun f i j =>
      if f < n then t f i j + cornerSum D.nz D.ny (allCorners (nanoAdd D rks f)) i j else t f i j := by
  induction bs generalizing t with
  | nil =>
    show Except.ok t = Except.ok _
    congr 1
    funext f i j
    simp [nanoAdd, allCorners, cornerSum]
  | cons b bs ih =>
    rw [Detector.nanoLoop, nanoBatch_eq, nanoPairs]
    cases D.airyKernels j1 (b.map D.firstZero) with
    | error e => rfl
    | ok ks =>
      simp only [Except.map]
      rw [ih]
      cases nanoPairs D j1 bs with
      | error e => rfl
      | ok rest =>
        show Except.ok _ = Except.ok _
        congr 1
        funext f i j
        by_cases hf : f < n
        · simp only [if_pos hf]
          have : nanoAdd D (b.zip ks ++ rest) f = nanoAdd D (b.zip ks) f ++ nanoAdd D rest f := by
            unfold nanoAdd; rw [List.filter_append, List.map_append]
          rw [this, allCorners_append, cornerSum_append]; ring
        · simp only [if_neg hf]

/-- kernels of a list of peaks have the same number as the peaks -/
theorem airyKernels_length {D : Detector} {j1 : ℝ → ℝ} {zs : List ℝ} {ks : List Kernel} (h : D.airyKernels j1 zs = .ok ks) :
    ks.length = zs.length := by
  unfold Detector.airyKernels at h
  dsimp only at h
  split_ifs at h
  simp only [Except.ok.injEq] at h
  subst h
  simp

/-! ### padding does not change a deposition -/

theorem corners_zero (h w : ℕ) (z y : ℝ) (i j : ℕ) : cornerSum h w (corners (z, y, 0)) i j = 0 := by
  unfold cornerSum corners; simp

/-- what one kernel adds to a pixel -/
noncomputable def kernelAdd (h w : ℕ) (k : Kernel × ℝ × ℝ) (i j : ℕ) : ℝ := cornerSum h w (allCorners [k]) i j

theorem cornerSum_allCorners (h w : ℕ) (ks : List (Kernel × ℝ × ℝ)) (i j : ℕ) :
    cornerSum h w (allCorners ks) i j = (ks.map fun k => kernelAdd h w k i j).sum := by
  induction ks with
  | nil => simp [allCorners, cornerSum]
  | cons k ks ih =>
    rw [List.map_cons, List.sum_cons, ← ih]
    unfold kernelAdd
    rw [← cornerSum_append, ← allCorners_append]; rfl

theorem kernelAdd_eq (h w : ℕ) (k : Kernel) (cz cy : ℝ) (i j : ℕ) :
    kernelAdd h w (k, cz, cy) i j = ∑ a ∈ Finset.range k.size, ∑ b ∈ Finset.range k.size,
      cornerSum h w (corners (cz + ((a : ℝ) - ((k.size / 2 : ℕ) : ℝ)), cy + ((b : ℝ) - ((k.size / 2 : ℕ) : ℝ)), k.val a b)) i j := by
  unfold kernelAdd
  have : cornerSum h w (allCorners [(k, cz, cy)]) i j =
      ((kernelSamples k cz cy).map fun s => cornerSum h w (corners s) i j).sum := by
    rw [allCorners_cons]
    have : allCorners ([] : List (Kernel × ℝ × ℝ)) = [] := rfl
    rw [this, List.append_nil]
    unfold cornerSum
    rw [sum_flatMap]
  rw [this, sum_kernelSamples]

theorem sum_pad (s p : ℕ) (F G : ℕ → ℝ) (h0 : ∀ a, ¬ (p ≤ a ∧ a < p + s) → F a = 0) (h1 : ∀ a < s, F (p + a) = G a) :
    ∑ a ∈ Finset.range (s + 2 * p), F a = ∑ a ∈ Finset.range s, G a := by
  have : ∑ a ∈ Finset.range (s + 2 * p), F a = ∑ a ∈ Finset.Ico p (p + s), F a := by
    symm
    apply Finset.sum_subset
    · intro a ha; simp only [Finset.mem_Ico, Finset.mem_range] at *; omega
    · intro a _ ha; apply h0; simpa using ha
  rw [this, Finset.sum_Ico_eq_sum_range]
  have e : p + s - p = s := by omega
  rw [e]
  exact Finset.sum_congr rfl fun a ha => h1 a (Finset.mem_range.mp ha)

theorem kernelAdd_pad (h w : ℕ) (k : Kernel) (p : ℕ) (c cz cy : ℝ) (i j : ℕ) :
    kernelAdd h w (Detector.scaleKernel (k.pad p) c, cz, cy) i j = kernelAdd h w (Detector.scaleKernel k c, cz, cy) i j := by
  rw [kernelAdd_eq, kernelAdd_eq]
  have hhalf : (k.size + 2 * p) / 2 = k.size / 2 + p := by omega
  have hv : ∀ a b, (Detector.scaleKernel (k.pad p) c).val a b =
      if p ≤ a ∧ a < p + k.size ∧ p ≤ b ∧ b < p + k.size then k.val (a - p) (b - p) * c else 0 := by
    intro a b
    unfold Detector.scaleKernel Kernel.pad
    simp only
    split_ifs <;> simp
  have hs : (Detector.scaleKernel (k.pad p) c).size = k.size + 2 * p := rfl
  have hs2 : (Detector.scaleKernel k c).size = k.size := rfl
  have hv2 : ∀ a b, (Detector.scaleKernel k c).val a b = k.val a b * c := fun a b => rfl
  rw [hs, hs2, hhalf]
  apply sum_pad
  · intro a ha
    apply Finset.sum_eq_zero
    intro b _
    rw [hv, if_neg (by rintro ⟨h1, h2, -⟩; exact ha ⟨h1, h2⟩), corners_zero]
  · intro a ha
    apply sum_pad
    · intro b hb
      rw [hv, if_neg (by rintro ⟨-, -, h1, h2⟩; exact hb ⟨h1, h2⟩), corners_zero]
    · intro b hb
      rw [hv, if_pos (by omega), hv2]
      have e1 : p + a - p = a := by omega
      have e2 : p + b - p = b := by omega
      rw [e1, e2]
      push_cast
      congr 3
      · ring
      · congr 1; ring

end XRD
