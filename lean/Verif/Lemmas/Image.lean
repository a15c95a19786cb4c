import Verif.Model.Render

/-! Lemmas about accumulation, batches and kernels. -/

namespace XRD
open V3 M3 Fl
open scoped Classical

theorem chunks_aux {α : Type} (b : ℕ) (l : List α) (m : ℕ) :
    ((List.range m).map fun k : ℕ => (l.drop (k * b)).take b).flatten = l.take (m * b) := by
  induction m with
  | zero => simp
  | succ m ih =>
    rw [List.range_succ, List.map_append, List.flatten_append, ih, Nat.succ_mul, List.take_add]
    simp

/-- batching loses and repeats nothing -/
theorem chunks_flatten {α : Type} {b : ℕ} (hb : 0 < b) (l : List α) : (chunks b l).flatten = l := by
  unfold chunks
  rw [chunks_aux, List.take_of_length_le]
  have h := Nat.div_add_mod (l.length + b - 1) b
  have h2 := Nat.mod_lt (l.length + b - 1) hb
  rw [Nat.mul_comm] at h
  omega

theorem microBatchSize_pos (g : ℝ) : 0 < Detector.microBatchSize g := by
  unfold Detector.microBatchSize
  dsimp only
  split_ifs
  all_goals first
    | exact lt_of_lt_of_le (by norm_num) (le_max_left _ _)
    | norm_num

/-- the image of a list of deposits -/
noncomputable def stackOf (n h w : ℕ) (ds : List Deposit) : Stack := fun f i j =>
  ((ds.filter fun d => d.target n h w = some (f, i, j)).map Deposit.v).sum

theorem stackOf_nil (n h w : ℕ) : stackOf n h w [] = fun _ _ _ => 0 := by
  unfold stackOf; simp

theorem stackOf_append (n h w : ℕ) (a b : List Deposit) (f i j : ℕ) :
    stackOf n h w (a ++ b) f i j = stackOf n h w a f i j + stackOf n h w b f i j := by
  unfold stackOf; simp

theorem stackOf_perm {n h w : ℕ} {a b : List Deposit} (hp : a.Perm b) : stackOf n h w a = stackOf n h w b := by
  funext f i j
  unfold stackOf
  exact ((hp.filter _).map _).sum_eq

/-- closed form of the micro loop -/
theorem microLoop_eq (D : Detector) (n : ℕ) (t : Stack) (bs : List (List (List Fl))) :
    D.microLoop n t bs =
      if ∃ d ∈ bs.flatten.flatMap D.microDeposits, d.target n D.nz D.ny = none then .error .indexError
      else .ok fun f i j => t f i j + stackOf n D.nz D.ny (bs.flatten.flatMap D.microDeposits) f i j := by
  induction bs generalizing t with
  | nil => simp [Detector.microLoop, stackOf_nil]
  | cons b bs ih =>
    rw [Detector.microLoop]
    have hb : D.microBatch n t b = if ∃ d ∈ b.flatMap D.microDeposits, d.target n D.nz D.ny = none then .error .indexError
        else .ok fun f i j => t f i j + stackOf n D.nz D.ny (b.flatMap D.microDeposits) f i j := by
      unfold Detector.microBatch
      dsimp only
      by_cases he : b.flatMap D.microDeposits = []
      · rw [if_pos he, he]; simp [stackOf_nil]
      · rw [if_neg he]; rfl
    rw [hb, List.flatten_cons, List.flatMap_append]
    by_cases h1 : ∃ d ∈ b.flatMap D.microDeposits, d.target n D.nz D.ny = none
    · rw [if_pos h1, if_pos]
      obtain ⟨d, hd, hn⟩ := h1
      exact ⟨d, List.mem_append_left _ hd, hn⟩
    · rw [if_neg h1]
      simp only
      rw [ih]
      by_cases h2 : ∃ d ∈ bs.flatten.flatMap D.microDeposits, d.target n D.nz D.ny = none
      · rw [if_pos h2, if_pos]
        obtain ⟨d, hd, hn⟩ := h2
        exact ⟨d, List.mem_append_right _ hd, hn⟩
      · rw [if_neg h2, if_neg]
        · congr 1
          funext f i j
          rw [stackOf_append]; ring
        · rintro ⟨d, hd, hn⟩
          rcases List.mem_append.mp hd with hd | hd
          · exact h1 ⟨d, hd, hn⟩
          · exact h2 ⟨d, hd, hn⟩

theorem renderMicro_eq (D : Detector) (g : ℝ) (peaks : List (List Fl)) (n : ℕ) :
    D.renderMicro g peaks n =
      if ∃ d ∈ peaks.flatMap D.microDeposits, d.target n D.nz D.ny = none then .error .indexError
      else .ok (stackOf n D.nz D.ny (peaks.flatMap D.microDeposits)) := by
  unfold Detector.renderMicro
  rw [microLoop_eq, chunks_flatten (microBatchSize_pos g)]
  simp only [zero_add]

theorem roundEven_near (x : ℝ) : |(roundEven x : ℝ) - x| ≤ 1 / 2 := by
  have h0 := Int.floor_le x
  have h1 := Int.lt_floor_add_one x
  unfold roundEven
  split_ifs <;> rw [abs_le] <;> push_cast <;> constructor <;> linarith

theorem mem_window {r : ℕ} {o : ℤ × ℤ} : o ∈ Detector.window r ↔ |o.1| ≤ r ∧ |o.2| ≤ r := by
  unfold Detector.window
  simp only [List.mem_flatMap, List.mem_range, List.mem_map]
  constructor
  · rintro ⟨a, ha, b, hb, rfl⟩
    simp only [abs_le]; omega
  · rintro ⟨h1, h2⟩
    rw [abs_le] at h1 h2
    refine ⟨(o.1 + r).toNat, by omega, (o.2 + r).toNat, by omega, ?_⟩
    ext <;> simp <;> omega

/-- sum of all entries of a stack -/
noncomputable def stackTotal (n h w : ℕ) (t : Stack) : ℝ :=
  ∑ f ∈ Finset.range n, ∑ i ∈ Finset.range h, ∑ j ∈ Finset.range w, t f i j

theorem wrapIdx_lt {i : ℤ} {n k : ℕ} (h : wrapIdx i n = some k) : k < n := by
  unfold wrapIdx at h
  split_ifs at h with h1 h2
  · simp only [Option.some.injEq] at h; omega
  · simp only [Option.some.injEq] at h; omega

theorem target_lt {d : Deposit} {n h w f i j : ℕ} (ht : d.target n h w = some (f, i, j)) : f < n ∧ i < h ∧ j < w := by
  unfold Deposit.target at ht
  split at ht
  · rename_i a b c ha hb hc
    simp only [Option.some.injEq, Prod.mk.injEq] at ht
    obtain ⟨rfl, rfl, rfl⟩ := ht
    exact ⟨wrapIdx_lt ha, wrapIdx_lt hb, wrapIdx_lt hc⟩
  · cases ht

theorem stackOf_cons (n h w : ℕ) (d : Deposit) (ds : List Deposit) (f i j : ℕ) :
    stackOf n h w (d :: ds) f i j = (if d.target n h w = some (f, i, j) then d.v else 0) + stackOf n h w ds f i j := by
  unfold stackOf
  by_cases hd : d.target n h w = some (f, i, j)
  · simp [hd]
  · simp [hd]

/-- the total of a deposited image is the sum of the deposited values -/
theorem stackTotal_stackOf (n h w : ℕ) (ds : List Deposit) (hd : ∀ d ∈ ds, d.target n h w ≠ none) :
    stackTotal n h w (stackOf n h w ds) = (ds.map Deposit.v).sum := by
  induction ds with
  | nil => simp [stackTotal, stackOf_nil]
  | cons d ds ih =>
    rw [List.map_cons, List.sum_cons, ← ih fun e he => hd e (List.mem_cons_of_mem _ he)]
    unfold stackTotal
    simp only [stackOf_cons, Finset.sum_add_distrib]
    congr 1
    obtain ⟨⟨f, i, j⟩, ht⟩ := Option.ne_none_iff_exists'.mp (hd d List.mem_cons_self)
    obtain ⟨h1, h2, h3⟩ := target_lt ht
    rw [ht]
    rw [Finset.sum_eq_single f]
    · rw [Finset.sum_eq_single i]
      · rw [Finset.sum_eq_single j]
        · simp
        · intro b _ hb; rw [if_neg]; simp; exact fun h => hb h.symm
        · intro h; exact absurd (Finset.mem_range.mpr h3) h
      · intro b _ hb
        apply Finset.sum_eq_zero; intro c _
        rw [if_neg]; simp; exact fun h => absurd h.symm hb
      · intro h; exact absurd (Finset.mem_range.mpr h2) h
    · intro b _ hb
      apply Finset.sum_eq_zero; intro c _
      apply Finset.sum_eq_zero; intro e _
      rw [if_neg]; simp; exact fun h => absurd h.symm hb
    · intro h; exact absurd (Finset.mem_range.mpr h1) h

theorem stackOf_ne_zero {n h w : ℕ} {ds : List Deposit} {f i j : ℕ} (hs : stackOf n h w ds f i j ≠ 0) :
    ∃ d ∈ ds, d.target n h w = some (f, i, j) := by
  by_contra hc
  push Not at hc
  apply hs
  unfold stackOf
  rw [List.filter_eq_nil_iff.mpr (by intro d hd; simpa using hc d hd)]
  rfl

theorem stackOf_nonneg {n h w : ℕ} {ds : List Deposit} (hs : ∀ d ∈ ds, 0 ≤ d.v) (f i j : ℕ) : 0 ≤ stackOf n h w ds f i j := by
  unfold stackOf
  apply List.sum_nonneg
  intro x hx
  obtain ⟨d, hd, rfl⟩ := List.mem_map.mp hx
  exact hs d (List.mem_filter.mp hd).1

theorem wrapIdx_of_lt {i : ℤ} {n : ℕ} (h0 : 0 ≤ i) (h1 : i < n) : wrapIdx i n = some i.toNat := by
  unfold wrapIdx; rw [if_pos ⟨h0, h1⟩]

/-! sums over a filtered list -/

theorem sum_filter_le {α : Type} (l : List α) (p : α → Prop) [DecidablePred p] (g : α → ℝ) (hg : ∀ a ∈ l, 0 ≤ g a) :
    ((l.filter fun a => p a).map g).sum ≤ (l.map g).sum := by
  induction l with
  | nil => simp
  | cons a l ih =>
    have := ih fun b hb => hg b (List.mem_cons_of_mem _ hb)
    by_cases h : p a
    · simp [h]; simpa using this
    · simp [h]; have := hg a List.mem_cons_self; linarith

theorem le_sum_filter {α : Type} (l : List α) (p : α → Prop) [DecidablePred p] (g : α → ℝ) {c : ℝ} (hc : 0 ≤ c) (hg : ∀ a ∈ l, ¬ p a → g a ≤ c) :
    (l.map g).sum - l.length * c ≤ ((l.filter fun a => p a).map g).sum := by
  induction l with
  | nil => simp
  | cons a l ih =>
    have := ih fun b hb => hg b (List.mem_cons_of_mem _ hb)
    by_cases h : p a
    · simp [h]; simp at this; linarith
    · simp [h]; have := hg a List.mem_cons_self h; linarith

end XRD
