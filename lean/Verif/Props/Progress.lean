import Verif.Model.Progress
import Mathlib.Data.Nat.Digits.Defs

/-! C58: progress reporting. -/

namespace XRD
open Fl
open Classical

/-- Specification: a progress line is the message padded to 55 characters, a bar of exactly 40 characters (filled, then blank)
and the percentage. -/
def Spec.ProgressLine (message line : List Char) : Prop :=
  ∃ (pad k : ℕ) (pct : List Char), message.length + pad = 55 ∧ k ≤ 40 ∧
    line = "\r".toList ++ message ++ List.replicate pad ' ' ++ " |".toList ++
      (List.replicate k '█' ++ List.replicate (40 - k) ' ') ++ "| ".toList ++ pct ++ "%".toList

theorem printProgress_ok (pct : ℝ → List Char) (f : ℝ) (msg : List Char) (h0 : 0 ≤ f) (h1 : f ≤ 1) (hm : msg.length ≤ 55) :
    ∃ line, printProgress pct f msg = .ok line ∧ Spec.ProgressLine msg line := by
  unfold printProgress
  rw [if_neg (not_not.mpr hm)]
  refine ⟨_, rfl, 55 - msg.length, (Detector.pyInt (f * 40)).toNat, pct f, by omega, ?_, ?_⟩
  · have : Detector.pyInt (f * 40) ≤ 40 := by
      unfold Detector.pyInt
      rw [if_pos (by positivity)]
      have : (⌊f * 40⌋ : ℝ) ≤ f * 40 := Int.floor_le _
      have h : (⌊f * 40⌋ : ℝ) ≤ 40 := by linarith
      exact_mod_cast h
    omega
  · have hk : 0 ≤ Detector.pyInt (f * 40) := by
      unfold Detector.pyInt
      rw [if_pos (by positivity)]
      exact Int.floor_nonneg.mpr (by positivity)
    unfold repeatChar
    have e1 : ((55 : ℤ) - msg.length).toNat = 55 - msg.length := by omega
    have e2 : ((40 : ℤ) - Detector.pyInt (f * 40)).toNat = 40 - (Detector.pyInt (f * 40)).toNat := by omega
    rw [e1, e2]
    simp only [List.append_assoc]
    rfl

theorem natText_length {n : ℕ} (h : n < 10 ^ 15) : (natText n).length ≤ 15 := Nat.toDigits_length 10 n 15 (by norm_num) h

/-- C58: for fewer than 10^15 peaks, no progress call of a micro rendering fails, and every printed bar is 40 wide. -/
theorem C58_micro (pct : ℝ → List Char) (freeGb : ℝ) (peaks : List (List Fl)) (hn : peaks.length < 10 ^ 15) :
    ∀ ev ∈ Detector.microProgress freeGb peaks, ∃ line, printProgress pct ev.1 ev.2 = .ok line ∧ Spec.ProgressLine ev.2 line := by
  intro ev hev
  obtain ⟨s, hs, rfl⟩ := List.mem_map.mp hev
  have hb : 0 < Detector.microBatchSize freeGb := by
    unfold Detector.microBatchSize
    dsimp only
    split_ifs
    all_goals omega
  have hs' : s < peaks.length := List.mem_range.mp (List.mem_filter.mp hs).1
  generalize Detector.microBatchSize freeGb = b at hb ⊢
  have hnp : (0:ℝ) < peaks.length := by exact_mod_cast (by omega : 0 < peaks.length)
  apply printProgress_ok
  · positivity
  · rw [div_le_one hnp]
    exact_mod_cast min_le_right _ _
  · have h1 : (natText (s / b + 1)).length ≤ 15 := natText_length (by have := Nat.div_le_self s b; omega)
    have h2 : (natText ((peaks.length + b - 1) / b)).length ≤ 15 := by
      apply natText_length
      have : (peaks.length + b - 1) / b ≤ peaks.length := by
        apply Nat.div_le_of_le_mul
        have : peaks.length ≤ b * peaks.length := Nat.le_mul_of_pos_left _ hb
        have h3 : b * 1 ≤ b * peaks.length := Nat.mul_le_mul_left b (by omega)
        have h4 : (peaks.length - 1) * (b - 1) ≥ 0 := Nat.zero_le _
        have h5 : peaks.length + b ≤ b * peaks.length + 1 := by
          obtain ⟨c, hc⟩ : ∃ c, b = c + 1 := ⟨b - 1, by omega⟩
          obtain ⟨m, hm⟩ : ∃ m, peaks.length = m + 1 := ⟨peaks.length - 1, by omega⟩
          rw [hc, hm]; nlinarith
        omega
      omega
    simp only [List.length_append]
    have e1 : "[Micro] Batch ".toList.length = 14 := by decide
    have e2 : "/".toList.length = 1 := by decide
    omega

theorem nanoLoop_events (n : ℕ) (hn : n < 10 ^ 15) : ∀ (ss : List ℕ) (start num : ℕ), (∀ s ∈ ss, 1 ≤ s) → start + ss.sum = n → num ≤ start →
    ∀ ev ∈ Detector.nanoProgressLoop n start num ss, 0 ≤ ev.1 ∧ ev.1 ≤ 1 ∧ ev.2.length ≤ 55 := by
  intro ss
  induction ss with
  | nil => intro _ _ _ _ _ ev h; simp [Detector.nanoProgressLoop] at h
  | cons s ss ih =>
    intro start num hpos hsum hnum ev hev
    have hs := hpos s List.mem_cons_self
    rw [List.sum_cons] at hsum
    rcases List.mem_cons.mp hev with rfl | hev
    · have hnp : (0:ℝ) < n := by exact_mod_cast (by omega : 0 < n)
      refine ⟨by positivity, ?_, ?_⟩
      · rw [div_le_one hnp]; exact_mod_cast (by omega)
      · have h1 : (natText (num + 1)).length ≤ 15 := natText_length (by omega)
        have h2 : (natText s).length ≤ 15 := natText_length (by omega)
        simp only [List.length_append]
        have e1 : "[Nano] Batch ".toList.length = 13 := by decide
        have e2 : ", n=".toList.length = 4 := by decide
        omega
    · exact ih (start + s) (num + 1) (fun s' h => hpos s' (List.mem_cons_of_mem _ h)) (by omega) (by omega) ev hev

theorem nanoBatches_sizes (D : Detector) (a : ℝ) : ∀ (k : ℕ) (l : List (List Fl)), l.length = k →
    (∀ s ∈ (D.nanoBatches a l).map List.length, 1 ≤ s) ∧ ((D.nanoBatches a l).map List.length).sum = l.length := by
  intro k
  induction k using Nat.strong_induction_on with
  | _ k ih =>
    intro l hl
    cases l with
    | nil => rw [Detector.nanoBatches]; simp
    | cons r rs =>
      rw [Detector.nanoBatches]
      have h1 : 1 ≤ D.nanoBatchSize a (r :: rs) := le_max_left _ _
      obtain ⟨i1, i2⟩ := ih ((r :: rs).drop (D.nanoBatchSize a (r :: rs))).length
        (by rw [List.length_drop]; simp only [List.length_cons] at hl ⊢; omega) _ rfl
      constructor
      · intro s hs
        rw [List.map_cons] at hs
        rcases List.mem_cons.mp hs with rfl | hs
        · rw [List.length_take]; simp only [List.length_cons]; omega
        · exact i1 s hs
      · rw [List.map_cons, List.sum_cons, i2, List.length_take, List.length_drop]
        omega

/-- C58: the same for a nano rendering, whatever batches the free memory leads to. -/
theorem C58_nano (pct : ℝ → List Char) (D : Detector) (available : ℝ) (peaks : List (List Fl)) (hn : peaks.length < 10 ^ 15) :
    ∀ ev ∈ D.nanoProgress available peaks, ∃ line, printProgress pct ev.1 ev.2 = .ok line ∧ Spec.ProgressLine ev.2 line := by
  intro ev hev
  obtain ⟨h1, h2⟩ := nanoBatches_sizes D available _ peaks rfl
  obtain ⟨a, b, c⟩ := nanoLoop_events _ hn _ 0 0 h1 (by omega) (le_refl _) ev hev
  exact printProgress_ok pct _ _ a b c

/-- every peak belongs to exactly one of the frames the macro loop runs over -/
theorem macro_count (peaks : List (List Fl)) :
    (((peaks.map fun r => rcol r 28).dedup).map fun f => (peaks.filter fun r => rcol r 28 = f).length).sum = peaks.length := by
  have h := List.sum_map_count_dedup_eq_length (peaks.map fun r => rcol r 28)
  rw [List.length_map] at h
  rw [← h]
  congr 1
  apply List.map_congr_left
  intro f _
  rw [List.count, List.countP_map, List.countP_eq_length_filter]
  congr 1

/-- C58: the same for a macro rendering. -/
theorem C58_macro (pct : ℝ → List Char) (peaks : List (List Fl)) (hn : peaks.length < 10 ^ 15) :
    ∀ ev ∈ Detector.macroProgress peaks, ∃ line, printProgress pct ev.1 ev.2 = .ok line ∧ Spec.ProgressLine ev.2 line := by
  intro ev hev
  obtain ⟨i, hi, rfl⟩ := List.mem_map.mp hev
  rw [macro_count] at hi
  have hi' := List.mem_range.mp hi
  have hnp : (0:ℝ) < peaks.length := by exact_mod_cast (by omega : 0 < peaks.length)
  apply printProgress_ok
  · positivity
  · rw [div_le_one hnp]; exact_mod_cast hi'
  · have h1 : (natText (i + 1)).length ≤ 15 := natText_length (by omega)
    have h2 : (natText peaks.length).length ≤ 15 := natText_length hn
    simp only [List.length_append]
    have e1 : "[Macro] Peak ".toList.length = 13 := by decide
    have e2 : "/".toList.length = 1 := by decide
    omega

/-- the lists of events are not empty: three peaks give three macro events, one micro event and at least one nano
event -/
example (D : Detector) : (Detector.macroProgress [[], [], []]).length = 3 ∧ (Detector.microProgress 0 [[], [], []]).length = 1 ∧
    D.nanoProgress 0 [[], [], []] ≠ [] := by
  refine ⟨?_, ?_, ?_⟩
  · unfold Detector.macroProgress
    dsimp only
    rw [macro_count]; simp
  · unfold Detector.microProgress Detector.microBatchSize
    simp [List.range_succ]
  · unfold Detector.nanoProgress
    rw [Detector.nanoBatches]
    simp [Detector.nanoProgressLoop]

end XRD
