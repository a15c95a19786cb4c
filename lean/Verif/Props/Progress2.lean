import Verif.Props.Progress

/-! C121: what the progress reports of a rendering say. -/

namespace XRD
open Fl

/-- progress that moves on: every reported fraction is positive and larger than the one before, and the last one is one -/
def Spec.Advances (events : List (ℝ × List Char)) : Prop :=
  (∀ e ∈ events, 0 < e.1) ∧ events.Pairwise (fun a b => a.1 < b.1) ∧ ∃ e, events.getLast? = some e ∧ e.1 = 1

open Spec

theorem multiples (b : ℕ) (hb : 0 < b) (n : ℕ) :
    ((List.range n).filter fun s => s % b = 0) = (List.range ((n + b - 1) / b)).map (· * b) := by
  induction n with
  | zero => rw [Nat.div_eq_of_lt (by omega)]; rfl
  | succ n ih =>
    rw [List.range_succ, List.filter_append, ih]
    by_cases h : n % b = 0
    · have hq : b * (n / b) = n := by have := Nat.div_add_mod n b; omega
      have e1 : (n + b - 1) / b = n / b := by
        rw [Nat.div_eq_iff hb]; rw [_root_.mul_comm] at hq; omega
      have e2 : (n + 1 + b - 1) / b = n / b + 1 := by
        rw [show n + 1 + b - 1 = n + b by omega, Nat.add_div_right _ hb]
      rw [e1, e2, List.range_succ, List.map_append, List.filter_cons, if_pos (by simpa using h), List.filter_nil, List.map_cons, List.map_nil,
        _root_.mul_comm (n / b), hq]
    · have hq := Nat.div_add_mod n b
      have hl := Nat.mod_lt n hb
      have e1 : (n + b - 1) / b = n / b + 1 := by
        rw [Nat.div_eq_iff hb, _root_.add_mul, _root_.mul_comm (n / b)]; omega
      have e2 : (n + 1 + b - 1) / b = n / b + 1 := by
        rw [show n + 1 + b - 1 = n + b by omega, Nat.add_div_right _ hb]
      rw [e1, e2, List.filter_cons, if_neg (by simpa using h), List.filter_nil, List.append_nil]

/-- C121, micro: the fractions of the progress reports grow to one, and the reports count the batches. -/
theorem C121_micro_progress (freeGb : ℝ) (peaks : List (List Fl)) (hp : peaks ≠ []) :
    Advances (Detector.microProgress freeGb peaks) ∧
    ∀ k e, (Detector.microProgress freeGb peaks)[k]? = some e →
      e.2 = "[Micro] Batch ".toList ++ Nat.toDigits 10 (k + 1) ++ "/".toList ++ Nat.toDigits 10 (Detector.microProgress freeGb peaks).length := by
  have hb : 0 < Detector.microBatchSize freeGb := by
    unfold Detector.microBatchSize
    dsimp only
    split_ifs
    all_goals omega
  have hn : 0 < peaks.length := List.length_pos_iff.mpr hp
  unfold Detector.microProgress
  dsimp only
  generalize Detector.microBatchSize freeGb = b at hb ⊢
  generalize peaks.length = n at hn ⊢
  rw [multiples b hb, List.map_map]
  have hnp : (0:ℝ) < n := by exact_mod_cast hn
  set q := (n + b - 1) / b with hq
  have hq0 : 0 < q := Nat.div_pos (by omega) hb
  have hqn : n ≤ q * b := by
    have h1 := Nat.div_add_mod (n + b - 1) b
    have h2 := Nat.mod_lt (n + b - 1) hb
    rw [← hq, _root_.mul_comm] at h1
    omega
  have hqn' : (q - 1) * b < n := by
    have h1 := Nat.div_mul_le_self (n + b - 1) b
    rw [← hq] at h1
    rw [Nat.sub_mul]; omega
  have lt : ∀ k, k < q → k * b < n := fun k hk => lt_of_le_of_lt (Nat.mul_le_mul_right b (by omega)) hqn'
  refine ⟨⟨?_, ?_, ?_⟩, ?_⟩
  · intro e he
    obtain ⟨k, hk, rfl⟩ := List.mem_map.mp he
    have : 0 < min (k * b + b) n := by omega
    show (0:ℝ) < ((min (k * b + b) n : ℕ) : ℝ) / n
    have h2 : (0:ℝ) < ((min (k * b + b) n : ℕ) : ℝ) := by exact_mod_cast this
    positivity
  · rw [List.pairwise_map]
    refine List.Pairwise.imp_of_mem ?_ (List.pairwise_lt_range (n := q))
    intro i j hi hj hij
    show ((min (i * b + b) n : ℕ) : ℝ) / n < ((min (j * b + b) n : ℕ) : ℝ) / n
    have hj' := lt j (List.mem_range.mp hj)
    have h1 : i * b + b ≤ j * b := by
      have := Nat.mul_le_mul_right b (show i + 1 ≤ j by omega)
      rwa [Nat.add_mul, Nat.one_mul] at this
    have : min (i * b + b) n < min (j * b + b) n := by omega
    have h2 : ((min (i * b + b) n : ℕ) : ℝ) < ((min (j * b + b) n : ℕ) : ℝ) := by exact_mod_cast this
    gcongr
  · rw [List.getLast?_map]
    have hl : (List.range q).getLast? = some (q - 1) := by rw [List.getLast?_range, if_neg (by omega)]
    rw [hl]
    refine ⟨_, rfl, ?_⟩
    show ((min ((q - 1) * b + b) n : ℕ) : ℝ) / n = 1
    have : (q - 1) * b + b = q * b := by
      obtain ⟨c, hc⟩ : ∃ c, q = c + 1 := ⟨q - 1, by omega⟩
      rw [hc, Nat.add_sub_cancel, Nat.add_mul, Nat.one_mul]
    rw [this, min_eq_right hqn, div_self (ne_of_gt hnp)]
  · intro k e he
    rw [List.length_map, List.length_range]
    rw [List.getElem?_map] at he
    obtain ⟨j, hj, rfl⟩ := Option.map_eq_some_iff.mp he
    have hjk : j = k := by
      obtain ⟨h1, h2⟩ := List.getElem?_eq_some_iff.mp hj
      rw [List.getElem_range] at h2; exact h2.symm
    subst hjk
    show "[Micro] Batch ".toList ++ natText (j * b / b + 1) ++ "/".toList ++ natText q = _
    rw [Nat.mul_div_cancel _ hb]
    rfl

/-- C121, macro: the `k`-th report of `n` says that `k` of the `n` peaks are done, and shows the fraction `k / n`. -/
theorem C121_macro_progress (peaks : List (List Fl)) :
    (Detector.macroProgress peaks).length = peaks.length ∧ (peaks ≠ [] → Advances (Detector.macroProgress peaks)) ∧
    ∀ k e, (Detector.macroProgress peaks)[k]? = some e → e.1 = ((k + 1 : ℕ) : ℝ) / peaks.length ∧
      e.2 = "[Macro] Peak ".toList ++ Nat.toDigits 10 (k + 1) ++ "/".toList ++ Nat.toDigits 10 peaks.length := by
  unfold Detector.macroProgress
  dsimp only
  rw [macro_count]
  refine ⟨by simp, ?_, ?_⟩
  · intro hp
    have hn : 0 < peaks.length := List.length_pos_iff.mpr hp
    generalize peaks.length = n at hn ⊢
    have hnp : (0:ℝ) < n := by exact_mod_cast hn
    refine ⟨?_, ?_, ?_⟩
    · intro e he
      obtain ⟨k, hk, rfl⟩ := List.mem_map.mp he
      show (0:ℝ) < ((k + 1 : ℕ) : ℝ) / n
      positivity
    · rw [List.pairwise_map]
      refine List.Pairwise.imp ?_ (List.pairwise_lt_range (n := n))
      intro i j hij
      show ((i + 1 : ℕ) : ℝ) / n < ((j + 1 : ℕ) : ℝ) / n
      have : ((i + 1 : ℕ) : ℝ) < ((j + 1 : ℕ) : ℝ) := by exact_mod_cast (by omega : i + 1 < j + 1)
      gcongr
    · rw [List.getLast?_map, List.getLast?_range, if_neg (by omega)]
      refine ⟨_, rfl, ?_⟩
      show ((n - 1 + 1 : ℕ) : ℝ) / n = 1
      rw [Nat.sub_add_cancel hn, div_self (ne_of_gt hnp)]
  · intro k e he
    rw [List.getElem?_map] at he
    obtain ⟨j, hj, rfl⟩ := Option.map_eq_some_iff.mp he
    obtain ⟨h1, h2⟩ := List.getElem?_eq_some_iff.mp hj
    rw [List.getElem_range] at h2
    subst h2
    exact ⟨rfl, rfl⟩

theorem nano_progress (n : ℕ) (hn : 0 < n) : ∀ (ss : List ℕ) (start num : ℕ), (∀ s ∈ ss, 1 ≤ s) → start + ss.sum = n →
    (∀ e ∈ Detector.nanoProgressLoop n start num ss, (start : ℝ) / n < e.1) ∧
    (Detector.nanoProgressLoop n start num ss).Pairwise (fun a b => a.1 < b.1) ∧
    (ss ≠ [] → ∃ e, (Detector.nanoProgressLoop n start num ss).getLast? = some e ∧ e.1 = 1) ∧
    (Detector.nanoProgressLoop n start num ss).length = ss.length ∧
    ∀ k e, (Detector.nanoProgressLoop n start num ss)[k]? = some e → ∃ s, ss[k]? = some s ∧
      e.1 = ((start + (ss.take (k + 1)).sum : ℕ) : ℝ) / n ∧
      e.2 = "[Nano] Batch ".toList ++ Nat.toDigits 10 (num + k + 1) ++ ", n=".toList ++ Nat.toDigits 10 s := by
  have hnp : (0:ℝ) < n := by exact_mod_cast hn
  intro ss
  induction ss with
  | nil =>
    intro start num _ _
    refine ⟨by intro e h; simp [Detector.nanoProgressLoop] at h, List.Pairwise.nil, fun h => absurd rfl h, rfl, ?_⟩
    intro k e h
    simp [Detector.nanoProgressLoop] at h
  | cons s ss ih =>
    intro start num hpos hsum
    have hs := hpos s List.mem_cons_self
    rw [List.sum_cons] at hsum
    obtain ⟨i1, i2, i3, i4, i5⟩ := ih (start + s) (num + 1) (fun s' h => hpos s' (List.mem_cons_of_mem _ h)) (by omega)
    unfold Detector.nanoProgressLoop
    have hlt : (start : ℝ) / n < ((start + s : ℕ) : ℝ) / n := by
      have : (start : ℝ) < ((start + s : ℕ) : ℝ) := by exact_mod_cast (by omega : start < start + s)
      gcongr
    refine ⟨?_, ?_, ?_, ?_, ?_⟩
    · intro e he
      rcases List.mem_cons.mp he with rfl | he
      · exact hlt
      · exact hlt.trans (i1 e he)
    · exact List.pairwise_cons.mpr ⟨fun e he => i1 e he, i2⟩
    · intro _
      cases ss with
      | nil =>
        refine ⟨_, rfl, ?_⟩
        simp only [List.sum_nil] at hsum
        show ((start + s : ℕ) : ℝ) / n = 1
        rw [show start + s = n by omega, div_self (ne_of_gt hnp)]
      | cons t ts =>
        obtain ⟨e, he, h1⟩ := i3 (by simp)
        refine ⟨e, ?_, h1⟩
        unfold Detector.nanoProgressLoop at he ⊢
        rw [List.getLast?_cons_cons]
        exact he
    · rw [List.length_cons, i4, List.length_cons]
    · intro k e he
      cases k with
      | zero =>
        rw [List.getElem?_cons_zero] at he
        cases he
        exact ⟨s, rfl, by simp, rfl⟩
      | succ k =>
        rw [List.getElem?_cons_succ] at he
        obtain ⟨t, h1, h2, h3⟩ := i5 k e he
        refine ⟨t, by rw [List.getElem?_cons_succ]; exact h1, ?_, ?_⟩
        · rw [h2, List.take_succ_cons, List.sum_cons, Nat.add_assoc]
        · rw [h3, show num + 1 + k + 1 = num + (k + 1) + 1 by omega]

/-- C121, nano: the fractions grow to one; the `k`-th report numbers its batch, says how many peaks are in it, and shows the share of the
peaks that are in this and the earlier batches. -/
theorem C121_nano_progress (D : Detector) (available : ℝ) (peaks : List (List Fl)) (hp : peaks ≠ []) :
    Advances (D.nanoProgress available peaks) ∧ ∃ sizes : List ℕ, (∀ s ∈ sizes, 1 ≤ s) ∧ sizes.sum = peaks.length ∧
      (D.nanoProgress available peaks).length = sizes.length ∧
      ∀ k e, (D.nanoProgress available peaks)[k]? = some e → ∃ s, sizes[k]? = some s ∧
        e.1 = (((sizes.take (k + 1)).sum : ℕ) : ℝ) / peaks.length ∧
        e.2 = "[Nano] Batch ".toList ++ Nat.toDigits 10 (k + 1) ++ ", n=".toList ++ Nat.toDigits 10 s := by
  obtain ⟨h1, h2⟩ := nanoBatches_sizes D available _ peaks rfl
  have hn : 0 < peaks.length := List.length_pos_iff.mpr hp
  obtain ⟨a, b, c, d, e⟩ := nano_progress _ hn _ 0 0 h1 (by omega)
  refine ⟨⟨?_, b, c ?_⟩, _, h1, h2, d, ?_⟩
  · intro ev hev
    have := a ev hev
    simpa using this
  · intro h0
    rw [h0] at h2
    simp at h2; omega
  · intro k ev hev
    obtain ⟨s, g1, g2, g3⟩ := e k ev hev
    exact ⟨s, g1, by rw [g2, Nat.zero_add], by rw [g3, Nat.zero_add]⟩

/-- three peaks: the three reports of a macro rendering -/
example : (Detector.macroProgress [[], [], []]).map (·.1) = [1/3, 2/3, 1] := by
  have h := C121_macro_progress [[], [], []]
  unfold Detector.macroProgress
  dsimp only
  rw [macro_count]
  simp [List.range_succ]
  norm_num

end XRD
