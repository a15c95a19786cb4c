import Verif.Model.Proximity
import Verif.Props.Motion
import Mathlib.Analysis.Convex.Combination
import Verif.SpecHull

/-! C51, C52: candidate spheres and proximity intervals. -/

namespace XRD
open V3 M3 Proximity
open Classical

/-- Specification: `t` lies in one of the intervals -/
def Spec.Covered (l : List (ℝ × ℝ)) (t : ℝ) : Prop := ∃ p ∈ l, p.1 ≤ t ∧ t ≤ p.2

/-! ### C51 -/

/-- invariant of the loop after samples `0..k`: earlier candidates are covered once the open interval is closed at or after them -/
structure LoopInv (mask : ℕ → Bool) (time : ℕ → ℝ) (k : ℕ) (st : Bool × List (ℝ × ℝ)) : Prop where
  counting : st.1 = mask k
  covered : ∀ T, time k ≤ T → ∀ i ≤ k, mask i = true → Spec.Covered (if st.1 then setEnd T st.2 else st.2) (time i)
  nonempty : st.1 = true → st.2 ≠ []
  starts : ∀ p ∈ st.2, ∃ i ≤ k, p.1 = time i
  ends : ∀ p ∈ st.2, ∃ i ≤ k + 1, p.2 = time i

theorem setEnd_cover {l : List (ℝ × ℝ)} {t T : ℝ} (h : Spec.Covered l t) (hT : t ≤ T) : Spec.Covered (setEnd T l) t := by
  obtain ⟨p, hp, h1, h2⟩ := h
  cases l with
  | nil => simp at hp
  | cons q l =>
    rcases List.mem_cons.mp hp with rfl | hp
    · exact ⟨(p.1, T), List.mem_cons_self, h1, hT⟩
    · exact ⟨p, List.mem_cons_of_mem _ hp, h1, h2⟩

theorem setEnd_setEnd (T T' : ℝ) (l : List (ℝ × ℝ)) : setEnd T (setEnd T' l) = setEnd T l := by
  cases l <;> rfl

theorem loopInv_first (mask : ℕ → Bool) (time : ℕ → ℝ) : LoopInv mask time 0 (firstStep mask time) := by
  unfold firstStep
  by_cases h : mask 0 = true
  · rw [if_pos h]
    refine ⟨h.symm, ?_, by simp, ?_, ?_⟩
    · intro T hT i hi _
      obtain rfl : i = 0 := by omega
      exact ⟨_, List.mem_cons_self, le_refl _, hT⟩
    · intro p hp; rw [List.mem_singleton] at hp; subst hp; exact ⟨0, le_refl _, rfl⟩
    · intro p hp; rw [List.mem_singleton] at hp; subst hp; exact ⟨1, le_refl _, rfl⟩
  · rw [if_neg h]
    refine ⟨by simpa using h, ?_, by simp, by simp, by simp⟩
    intro T hT i hi hm
    obtain rfl : i = 0 := by omega
    exact absurd hm h

theorem loopInv_mid (mask : ℕ → Bool) (time : ℕ → ℝ) (hmono : Monotone time) (k : ℕ) (st : Bool × List (ℝ × ℝ))
    (h : LoopInv mask time k st) : LoopInv mask time (k + 1) (midStep mask time st (k + 1)) := by
  obtain ⟨cnt, l⟩ := st
  obtain ⟨h1, h2, h3, h4, h5⟩ := h
  simp only at h1 h2 h3 h4 h5
  unfold midStep
  have hk : time k ≤ time (k + 1) := hmono (Nat.le_succ k)
  have hk2 : time (k + 1) ≤ time (k + 2) := hmono (Nat.le_succ _)
  simp only [Nat.add_sub_cancel]
  cases hm : mask (k + 1) <;> cases cnt <;> simp only [Bool.not_true, Bool.not_false, Bool.and_true, Bool.and_false,
    Bool.false_eq_true, if_false, if_true]
  · -- not a candidate, not counting
    refine ⟨hm.symm, ?_, by simp, fun p hp => ?_, fun p hp => ?_⟩
    · intro T hT i hi hmi
      have : i ≤ k := by
        rcases Nat.lt_or_ge k i with h | h
        · obtain rfl : i = k + 1 := by omega
          rw [hm] at hmi; cases hmi
        · exact h
      simpa using h2 (time k) (le_refl _) i this hmi
    · obtain ⟨i, hi, e⟩ := h4 p hp; exact ⟨i, by omega, e⟩
    · obtain ⟨i, hi, e⟩ := h5 p hp; exact ⟨i, by omega, e⟩
  · -- the interval is closed
    refine ⟨hm.symm, ?_, by simp, fun p hp => ?_, fun p hp => ?_⟩
    · intro T hT i hi hmi
      have : i ≤ k := by
        rcases Nat.lt_or_ge k i with h | h
        · obtain rfl : i = k + 1 := by omega
          rw [hm] at hmi; cases hmi
        · exact h
      simpa using h2 (time (k + 2)) (by linarith) i this hmi
    · cases l with
      | nil => simp [setEnd] at hp
      | cons q l =>
        rcases List.mem_cons.mp hp with rfl | hp
        · obtain ⟨i, hi, e⟩ := h4 q List.mem_cons_self; exact ⟨i, by omega, e⟩
        · obtain ⟨i, hi, e⟩ := h4 p (List.mem_cons_of_mem _ hp); exact ⟨i, by omega, e⟩
    · cases l with
      | nil => simp [setEnd] at hp
      | cons q l =>
        rcases List.mem_cons.mp hp with rfl | hp
        · exact ⟨k + 1 + 1, by omega, rfl⟩
        · obtain ⟨i, hi, e⟩ := h5 p (List.mem_cons_of_mem _ hp); exact ⟨i, by omega, e⟩
  · -- a new interval
    refine ⟨hm.symm, ?_, by simp, fun p hp => ?_, fun p hp => ?_⟩
    · intro T hT i hi hmi
      rcases Nat.lt_or_ge k i with h | h
      · obtain rfl : i = k + 1 := by omega
        exact ⟨_, List.mem_cons_self, hk, hT⟩
      · obtain ⟨p, hp, e⟩ := h2 (time k) (le_refl _) i h hmi
        exact ⟨p, List.mem_cons_of_mem _ (by simpa using hp), e⟩
    · rcases List.mem_cons.mp hp with rfl | hp
      · exact ⟨k, by omega, rfl⟩
      · obtain ⟨i, hi, e⟩ := h4 p hp; exact ⟨i, by omega, e⟩
    · rcases List.mem_cons.mp hp with rfl | hp
      · exact ⟨k + 1 + 1, by omega, rfl⟩
      · obtain ⟨i, hi, e⟩ := h5 p hp; exact ⟨i, by omega, e⟩
  · -- still counting
    refine ⟨hm.symm, ?_, fun _ => h3 rfl, fun p hp => ?_, fun p hp => ?_⟩
    · intro T hT i hi hmi
      rcases Nat.lt_or_ge k i with h | h
      · obtain rfl : i = k + 1 := by omega
        have hck := h2 (time k) (le_refl _) k (le_refl _) h1.symm
        simp only [if_true] at hck ⊢
        cases l with
        | nil => exact absurd rfl (h3 rfl)
        | cons q l =>
          refine ⟨(q.1, T), List.mem_cons_self, ?_, hT⟩
          obtain ⟨i, hi, e⟩ := h4 q List.mem_cons_self
          simp only [e]
          exact hmono (by omega)
      · have := h2 T (by linarith) i h hmi
        simpa using this
    · obtain ⟨i, hi, e⟩ := h4 p hp; exact ⟨i, by omega, e⟩
    · obtain ⟨i, hi, e⟩ := h5 p hp; exact ⟨i, by omega, e⟩

theorem loopInv_all (mask : ℕ → Bool) (time : ℕ → ℝ) (hmono : Monotone time) : ∀ k : ℕ,
    LoopInv mask time k ((List.range k).foldl (fun st k => midStep mask time st (k + 1)) (firstStep mask time)) := by
  intro k
  induction k with
  | zero => exact loopInv_first mask time
  | succ k ih =>
    rw [List.range_succ, List.foldl_append]
    exact loopInv_mid mask time hmono k _ ih

/-- C51 (partial): for every mask of three or more samples, every candidate sample is covered by one of the returned intervals,
provided the sphere is not a candidate at the last but one sample and no candidate at the last one. -/
theorem C51_covered_partial (n : ℕ) (hn : 3 ≤ n) (mask : ℕ → Bool) (time : ℕ → ℝ) (hmono : Monotone time)
    (hlast : mask (n - 2) = true → mask (n - 1) = true) (i : ℕ) (hi : i < n) (hm : mask i = true) :
    ∃ l, intervals n mask time = some l ∧ Spec.Covered l (time i) := by
  unfold intervals
  rw [if_neg]
  swap
  · intro h
    rw [List.all_eq_true] at h
    have := h i (List.mem_range.mpr hi)
    rw [hm] at this; cases this
  refine ⟨_, rfl, ?_⟩
  obtain ⟨m, rfl⟩ : ∃ m, n = m + 2 := ⟨n - 2, by omega⟩
  have inv := loopInv_all mask time hmono m
  simp only [Nat.add_sub_cancel, show m + 2 - 1 = m + 1 by omega] at hlast ⊢
  generalize (List.range m).foldl _ _ = st at inv ⊢
  obtain ⟨cnt, l⟩ := st
  obtain ⟨h1, h2, h3, h4, h5⟩ := inv
  simp only at h1 h2 h3 h4
  have hk : time m ≤ time (m + 1) := hmono (Nat.le_succ _)
  have rev : ∀ l : List (ℝ × ℝ), Spec.Covered l (time i) → Spec.Covered l.reverse (time i) := by
    rintro l ⟨p, hp, e⟩; exact ⟨p, List.mem_reverse.mpr hp, e⟩
  apply rev
  unfold lastStep
  simp only [show m + 2 - 1 = m + 1 by omega, Nat.add_sub_cancel]
  cases hl : mask (m + 1) <;> cases cnt <;> simp only [Bool.not_true, Bool.not_false, Bool.and_true, Bool.and_false,
    Bool.false_and, Bool.true_and, Bool.false_eq_true, if_false, if_true]
  · have : i ≤ m := by
      rcases Nat.lt_or_ge m i with h | h
      · obtain rfl : i = m + 1 := by omega
        rw [hl] at hm; cases hm
      · exact h
    simpa using h2 (time m) (le_refl _) i this hm
  · exact absurd (hlast h1.symm) (by rw [hl]; simp)
  · rcases Nat.lt_or_ge m i with h | h
    · obtain rfl : i = m + 1 := by omega
      exact ⟨_, List.mem_cons_self, hk, le_refl _⟩
    · obtain ⟨p, hp, e⟩ := h2 (time m) (le_refl _) i h hm
      exact ⟨p, List.mem_cons_of_mem _ (by simpa using hp), e⟩
  · rcases Nat.lt_or_ge m i with h | h
    · obtain rfl : i = m + 1 := by omega
      cases l with
      | nil => exact absurd rfl (h3 rfl)
      | cons q l =>
        obtain ⟨i, hi, e⟩ := h4 q List.mem_cons_self
        refine ⟨(q.1, time (m + 1)), List.mem_cons_self, ?_, le_refl _⟩
        simp only [e]; exact hmono (by omega)
    · have := h2 (time (m + 1)) hk i h hm
      simpa using this

/-- C51: for every mask, all returned intervals begin and end at sample times, so they lie within the sampled range. -/
theorem C51_within (n : ℕ) (hn : 3 ≤ n) (mask : ℕ → Bool) (time : ℕ → ℝ) (hmono : Monotone time) (l : List (ℝ × ℝ))
    (hl : intervals n mask time = some l) : ∀ p ∈ l, time 0 ≤ p.1 ∧ p.1 ≤ time (n - 1) ∧ time 0 ≤ p.2 ∧ p.2 ≤ time (n - 1) := by
  unfold intervals at hl
  split_ifs at hl
  obtain rfl := Option.some.inj hl
  obtain ⟨m, rfl⟩ : ∃ m, n = m + 2 := ⟨n - 2, by omega⟩
  have inv := loopInv_all mask time hmono m
  simp only [Nat.add_sub_cancel, show m + 2 - 1 = m + 1 by omega]
  generalize (List.range m).foldl _ _ = st at inv ⊢
  obtain ⟨cnt, q⟩ := st
  obtain ⟨-, -, -, h4, h5⟩ := inv
  simp only at h4 h5
  have gen : ∀ r : List (ℝ × ℝ), (∀ p ∈ r, (∃ i ≤ m + 1, p.1 = time i) ∧ ∃ i ≤ m + 1, p.2 = time i) → ∀ p ∈ r.reverse,
      time 0 ≤ p.1 ∧ p.1 ≤ time (m + 1) ∧ time 0 ≤ p.2 ∧ p.2 ≤ time (m + 1) := by
    intro r hr p hp
    obtain ⟨⟨i, hi, e⟩, ⟨j, hj, e'⟩⟩ := hr p (List.mem_reverse.mp hp)
    rw [e, e']
    exact ⟨hmono (Nat.zero_le _), hmono hi, hmono (Nat.zero_le _), hmono hj⟩
  have hq : ∀ p ∈ q, (∃ i ≤ m + 1, p.1 = time i) ∧ ∃ i ≤ m + 1, p.2 = time i := by
    intro p hp
    obtain ⟨i, hi, e⟩ := h4 p hp
    exact ⟨⟨i, by omega, e⟩, h5 p hp⟩
  apply gen
  unfold lastStep
  simp only [show m + 2 - 1 = m + 1 by omega, Nat.add_sub_cancel]
  split_ifs
  · intro p hp
    rcases List.mem_cons.mp hp with rfl | hp
    · exact ⟨⟨m, by omega, rfl⟩, ⟨m + 1, le_refl _, rfl⟩⟩
    · exact hq p hp
  · intro p hp
    cases q with
    | nil => simp [setEnd] at hp
    | cons a q =>
      rcases List.mem_cons.mp hp with rfl | hp
      · exact ⟨(hq a List.mem_cons_self).1, ⟨m + 1, le_refl _, rfl⟩⟩
      · exact hq p (List.mem_cons_of_mem _ hp)
  · exact hq

/-- C51 fails: a sphere that is in the beam at samples 0, 1 and 2 and has left it at the last sample 3 gets the single interval
from sample 0 to sample 1; sample 2 is in no interval. -/
theorem C51_leaving_at_end_fails :
    let mask : ℕ → Bool := fun i => decide (i < 3)
    intervals 4 mask (sampleTime 4) = some [(0, 1/3)] ∧ mask 2 = true ∧ ¬ Spec.Covered [(0, 1/3)] (sampleTime 4 2) := by
  refine ⟨?_, rfl, ?_⟩
  · simp [intervals, List.range_succ, firstStep, midStep, lastStep, sampleTime]
    norm_num
  · rintro ⟨p, hp, -, h⟩
    rw [List.mem_singleton] at hp
    subst hp
    norm_num [sampleTime] at h

/-- hypotheses of the partial theorem are met by a mask with two runs -/
example : (fun i : ℕ => decide (i = 1 ∨ i = 4)) (5 - 2) = true → (fun i : ℕ => decide (i = 1 ∨ i = 4)) (5 - 1) = true := by decide

/-! ### C52 -/

theorem sampleTime_mono {n : ℕ} (hn : 2 ≤ n) : Monotone (sampleTime n) := by
  intro i j hij
  unfold sampleTime
  have : (2:ℝ) ≤ n := by exact_mod_cast hn
  have h : (0:ℝ) ≤ (n:ℝ) - 1 := by linarith
  exact div_le_div_of_nonneg_right (by exact_mod_cast hij) h

theorem foldl_min_le (rs : List ℝ) : ∀ r : ℝ, rs.foldl min r ≤ r ∧ ∀ x ∈ rs, rs.foldl min r ≤ x := by
  induction rs with
  | nil => intro r; simp
  | cons a rs ih =>
    intro r
    obtain ⟨h1, h2⟩ := ih (min r a)
    refine ⟨le_trans h1 (min_le_left _ _), fun x hx => ?_⟩
    rcases List.mem_cons.mp hx with rfl | hx
    · exact le_trans h1 (min_le_right _ _)
    · exact h2 x hx

theorem foldl_min_mem (rs : List ℝ) : ∀ r : ℝ, rs.foldl min r = r ∨ rs.foldl min r ∈ rs := by
  induction rs with
  | nil => intro r; simp
  | cons a rs ih =>
    intro r
    rcases ih (min r a) with h | h
    · simp only [List.foldl_cons, h]
      rcases min_choice r a with h' | h'
      · left; exact h'
      · right; rw [h']; exact List.mem_cons_self
    · right; exact List.mem_cons_of_mem _ h

theorem minRadius_spec {l : List ℝ} (h : l ≠ []) : minRadius l ∈ l ∧ ∀ x ∈ l, minRadius l ≤ x := by
  cases l with
  | nil => exact absurd rfl h
  | cons r rs =>
    refine ⟨?_, ?_⟩
    · rcases foldl_min_mem rs r with h | h
      · rw [show minRadius (r :: rs) = r from h]; exact List.mem_cons_self
      · exact List.mem_cons_of_mem _ h
    · intro x hx
      rcases List.mem_cons.mp hx with rfl | hx
      · exact (foldl_min_le rs _).1
      · exact (foldl_min_le rs r).2 x hx

/-- the number of intervals is the integer part of the largest requirement -/
theorem sampleCount_spec (m : Motion) (radii : List ℝ) :
    ∃ M : ℝ, 2 ≤ M ∧ m.angle * 180 / Real.pi ≤ M ∧ |m.translation.x / (minRadius radii / 2)| ≤ M ∧
      |m.translation.y / (minRadius radii / 2)| ≤ M ∧ |m.translation.z / (minRadius radii / 2)| ≤ M ∧
      sampleCount m radii = ⌊M⌋₊ + 1 := by
  set tr := max (max |m.translation.x / (minRadius radii / 2)| |m.translation.y / (minRadius radii / 2)|) |m.translation.z / (minRadius radii / 2)| with htr
  refine ⟨max (max tr (m.angle * 180 / Real.pi)) 2, le_max_right _ _, le_trans (le_max_right _ _) (le_max_left _ _), ?_, ?_, ?_, ?_⟩
  · exact le_trans (le_trans (le_trans (le_max_left _ _) (le_max_left _ _)) (le_max_left tr _)) (le_max_left _ _)
  · exact le_trans (le_trans (le_trans (le_max_right _ _) (le_max_left _ _)) (le_max_left tr _)) (le_max_left _ _)
  · exact le_trans (le_trans (le_max_right _ _) (le_max_left tr _)) (le_max_left _ _)
  · unfold sampleCount Detector.pyInt
    dsimp only
    rw [← htr]
    set M := max (max tr (m.angle * 180 / Real.pi)) 2 with hM
    have hM2 : (2:ℝ) ≤ M := le_max_right _ _
    rw [if_pos (by linarith), Int.floor_add_one]
    have hf : (0:ℤ) ≤ ⌊M⌋ := Int.floor_nonneg.mpr (by linarith)
    rw [← Int.floor_toNat]; omega

/-- C52 (partial), sampling: there are at least 3 samples, the first at time 0 and the last at time 1; between consecutive samples
no component of the translation moves a sphere by more than 3/4 of the smallest radius, and the rotation is at most 1.5 degrees.
The documentation promises half the radius and 1 degree. -/
theorem C52_sampling_partial (m : Motion) (radii : List ℝ) (hr : radii ≠ []) (hpos : ∀ r ∈ radii, 0 < r) (h0 : 0 < m.angle) :
    let n := sampleCount m radii
    3 ≤ n ∧ sampleTime n 0 = 0 ∧ sampleTime n (n - 1) = 1 ∧
    ∀ i, i + 1 < n → ∀ r ∈ radii,
      |(sampleTime n (i + 1) - sampleTime n i) * m.translation.x| ≤ 3 / 4 * minRadius radii ∧
      |(sampleTime n (i + 1) - sampleTime n i) * m.translation.y| ≤ 3 / 4 * minRadius radii ∧
      |(sampleTime n (i + 1) - sampleTime n i) * m.translation.z| ≤ 3 / 4 * minRadius radii ∧
      minRadius radii ≤ r ∧
      (sampleTime n (i + 1) - sampleTime n i) * m.angle ≤ Spec.deg (3 / 2) := by
  intro n
  obtain ⟨M, hM2, hMa, hMx, hMy, hMz, hn⟩ := sampleCount_spec m radii
  have hn' : n = ⌊M⌋₊ + 1 := hn
  have hp := Real.pi_pos
  have hfl : 2 ≤ ⌊M⌋₊ := Nat.le_floor (by exact_mod_cast hM2)
  have hfl' : (2:ℝ) ≤ (⌊M⌋₊ : ℝ) := by exact_mod_cast hfl
  have hlt : M < (⌊M⌋₊ : ℝ) + 1 := Nat.lt_floor_add_one M
  obtain ⟨hmem, hmin⟩ := minRadius_spec hr
  have hrm := hpos _ hmem
  have hcast : ((n : ℝ) - 1) = ⌊M⌋₊ := by rw [hn']; push_cast; ring
  refine ⟨by omega, ?_, ?_, ?_⟩
  · simp [sampleTime]
  · unfold sampleTime
    rw [hcast, hn', Nat.add_sub_cancel, div_self (by linarith)]
  · intro i hi r hrr
    have hstep : sampleTime n (i + 1) - sampleTime n i = 1 / (⌊M⌋₊ : ℝ) := by
      unfold sampleTime; rw [hcast]; push_cast; ring
    rw [hstep]
    set F : ℝ := (⌊M⌋₊ : ℝ) with hF
    have hMF : M ≤ 3 / 2 * F := by linarith
    have comp : ∀ T : ℝ, |T / (minRadius radii / 2)| ≤ M → |1 / F * T| ≤ 3 / 4 * minRadius radii := by
      intro T hT
      rw [abs_div, abs_of_pos (show 0 < minRadius radii / 2 by linarith), div_le_iff₀ (by linarith)] at hT
      rw [abs_mul, abs_of_pos (by positivity), one_div, inv_mul_le_iff₀ (by linarith)]
      nlinarith
    refine ⟨comp _ hMx, comp _ hMy, comp _ hMz, hmin r hrr, ?_⟩
    unfold Spec.deg
    rw [div_le_iff₀ hp] at hMa
    rw [one_div, inv_mul_le_iff₀ (by linarith)]
    nlinarith

/-- C52 fails: the documented steps are exceeded.  For a rotation of 2.5 degrees and a translation of 1.45 radii there are 3
samples; the step is 1.25 degrees and 0.725 radii. -/
theorem C52_step_too_large_fails :
    ∃ m : Motion, Motion.new ⟨0, 0, 1⟩ (Spec.deg (5/2)) ⟨0, 0, 29/20⟩ 0 = .ok m ∧ sampleCount m [1] = 3 ∧
      Spec.deg 1 < (sampleTime 3 1 - sampleTime 3 0) * m.angle ∧
      1 / 2 < (sampleTime 3 1 - sampleTime 3 0) * m.translation.z := by
  have hp := Real.pi_pos
  have hax : axisAccepted ⟨0, 0, 1⟩ := by
    unfold axisAccepted allclose; rw [norm_ez]; norm_num
  refine ⟨⟨⟨0, 0, 1⟩, Spec.deg (5/2), ⟨0, 0, 29/20⟩, 0⟩, ?_, ?_, ?_, ?_⟩
  · unfold Motion.new
    rw [if_pos, if_pos hax]
    unfold Spec.deg
    constructor <;> nlinarith
  · have ha : Spec.deg (5/2) * 180 / Real.pi = 5/2 := by unfold Spec.deg; field_simp
    have hm : minRadius [1] = 1 := rfl
    unfold sampleCount Detector.pyInt
    simp only [ha, hm]
    have e : max (max (max (max |(0:ℝ) / (1 / 2)| |(0:ℝ) / (1 / 2)|) |(29:ℝ) / 20 / (1 / 2)|) (5 / 2)) 2 + 1 = 39/10 := by
      norm_num
    rw [e, if_pos (by norm_num)]
    have : ⌊(39:ℝ)/10⌋ = 3 := by rw [Int.floor_eq_iff]; norm_num
    rw [this]; rfl
  · unfold Spec.deg sampleTime; push_cast; nlinarith
  · unfold sampleTime; norm_num

/-- C51 on the API: for every accepted motion, beam and spheres of positive radius, all returned intervals lie in `[0,1]`, and
every sample time at which a sphere is a candidate lies in one of its intervals, unless the sphere is a candidate at the last but
one sample and not at the last. -/
theorem C51_api_partial (hullEq : List V3 → List HalfSpace) (b : Beam) (a T o : V3) (w : ℝ) (m inv : Motion)
    (hm : Motion.new a w T o = .ok m) (hi : m.inverse = .ok inv) (spheres : List (V3 × ℝ)) (j : ℕ) (c : V3) (r : ℝ) (hj : spheres[j]? = some (c, r)) :
    ∃ res, proximityIntervals hullEq b m spheres = .ok res ∧
      let n := sampleCount m (spheres.map Prod.snd)
      (∀ l, res[j]? = some (some l) → ∀ p ∈ l, 0 ≤ p.1 ∧ p.1 ≤ 1 ∧ 0 ≤ p.2 ∧ p.2 ≤ 1) ∧
      ((candidate hullEq b inv (sampleTime n (n - 2)) c r = true → candidate hullEq b inv (sampleTime n (n - 1)) c r = true) →
        ∀ i < n, candidate hullEq b inv (sampleTime n i) c r = true → ∃ l, res[j]? = some (some l) ∧ Spec.Covered l (sampleTime n i)) := by
  obtain ⟨M, hM2, -, -, -, -, hn⟩ := sampleCount_spec m (spheres.map Prod.snd)
  have hfl : 2 ≤ ⌊M⌋₊ := Nat.le_floor (by exact_mod_cast hM2)
  unfold proximityIntervals candidateSpheres
  rw [hi]
  refine ⟨_, rfl, ?_⟩
  intro n
  have hn3 : 3 ≤ n := by show 3 ≤ sampleCount m _; omega
  have hn1 : (0:ℝ) < (n:ℝ) - 1 := by
    have : (3:ℝ) ≤ n := by exact_mod_cast hn3
    linarith
  have h0 : sampleTime n 0 = 0 := by simp [sampleTime]
  have h1 : sampleTime n (n - 1) = 1 := by
    unfold sampleTime
    rw [Nat.cast_sub (by omega), Nat.cast_one, div_self hn1.ne']
  have hmask : ∀ i < n, (((List.range n).map (sampleTime n)).map fun t => candidate hullEq b inv t c r).getD i false =
      candidate hullEq b inv (sampleTime n i) c r := by
    intro i hi
    rw [List.getD_eq_getElem?_getD, List.getElem?_map, List.getElem?_map, List.getElem?_range hi]
    rfl
  have hget : ((spheres.map fun s => ((List.range n).map (sampleTime n)).map fun t => candidate hullEq b inv t s.1 s.2).map fun mask =>
      intervals ((List.range n).map (sampleTime n)).length (fun i => mask.getD i false) (sampleTime ((List.range n).map (sampleTime n)).length))[j]? =
      some (intervals n (fun i => (((List.range n).map (sampleTime n)).map fun t => candidate hullEq b inv t c r).getD i false) (sampleTime n)) := by
    rw [List.getElem?_map, List.getElem?_map, hj]
    simp only [Option.map_some, List.length_map, List.length_range]
  rw [hget]
  constructor
  · intro l hl p hp
    have := C51_within n hn3 _ _ (sampleTime_mono (by omega)) l (Option.some.inj hl) p hp
    rwa [h0, h1] at this
  · intro hlast i hi hc
    obtain ⟨l, hl, hcov⟩ := C51_covered_partial n hn3 (fun i => (((List.range n).map (sampleTime n)).map fun t => candidate hullEq b inv t c r).getD i false)
      (sampleTime n) (sampleTime_mono (by omega)) (by
        intro h
        rw [hmask _ (by omega)] at h ⊢
        exact hlast h) i hi (by rw [hmask i hi]; exact hc)
    exact ⟨l, by rw [hl], hcov⟩

theorem call1_affine (m : Motion) (t : ℝ) (p q : V3) (a b : ℝ) (hab : a + b = 1) :
    m.call1 (a • p + b • q) t = a • m.call1 p t + b • m.call1 q t := by
  obtain rfl : b = 1 - a := by linarith
  simp only [Motion.call1]
  generalize rotMat m.axis (m.angle * t) = R
  ext <;> simp [mulVec, V3.dot] <;> ring

/-- C52 (partial), conservative: let the translation be along the rotation axis (or zero), and let the hull equations of the
moved beam be exact up to `ε`.  If a sphere touches the beam at a time `t`, with a margin for `ε`, it is a candidate at that
time. -/
theorem C52_conservative_partial (a T o : V3) (w : ℝ) (m inv : Motion) (hm : Motion.new a w T o = .ok m) (hi : m.inverse = .ok inv)
    (ha : norm a = 1) (hT : cross a T = 0) (b : Beam) (hullEq : List V3 → List HalfSpace) (ε : ℝ) (hε : 0 ≤ ε) (t : ℝ)
    (ht0 : 0 ≤ t) (ht1 : t ≤ 1)
    (heq : ∀ e ∈ hullEq (b.vertices.map fun v => inv.call1 v t), norm e.n ≤ 1 + ε ∧ ∀ v ∈ b.vertices, e.n.dot (inv.call1 v t) + e.d ≤ ε)
    (c : V3) (r : ℝ) (q : V3) (hq : q ∈ convexHull ℝ {v | v ∈ b.vertices}) (htouch : V3.dist q (m.call1 c t) * (1 + ε) + ε ≤ r) :
    candidate hullEq b inv t c r = true := by
  have hback : inv.call1 (m.call1 c t) t = c := by
    rcases ht0.eq_or_lt with rfl | hpos
    · rw [C06_identity_at_time_zero, C06_identity_at_time_zero]
    · exact (C07_inverse_undoes_motion_partial a T o w t m inv hm hi ha hpos ht1).mpr hT c
  have hrigid : V3.dist (inv.call1 q t) c = V3.dist q (m.call1 c t) := by
    have hi' := hi
    unfold Motion.inverse at hi'
    obtain ⟨rfl, -⟩ := Motion.new_ok hm
    have := (C05_motion_is_rigid_partial _ _ _ _ t _ hi' (by rw [V3.norm_neg]; exact ha)).1 q (Motion.call1 ⟨a, w, T, o⟩ c t)
    simp only [hback] at this
    exact this
  unfold candidate
  rw [Bool.not_eq_true', List.any_eq_false]
  intro e he
  obtain ⟨hn, hv⟩ := heq e he
  simp only [decide_eq_true_eq, not_lt, gt_iff_lt]
  have hin : e.n.dot (inv.call1 q t) + e.d ≤ ε := by
    have hconv : Convex ℝ {p : V3 | e.n.dot (inv.call1 p t) + e.d ≤ ε} := by
      intro p hp p' hp' α β hα hβ hαβ
      simp only [Set.mem_setOf_eq] at hp hp' ⊢
      rw [call1_affine _ _ _ _ _ _ hαβ]
      have e1 : e.n.dot (α • inv.call1 p t + β • inv.call1 p' t) = α * e.n.dot (inv.call1 p t) + β * e.n.dot (inv.call1 p' t) := by
        simp [V3.dot]; ring
      have e2 : e.d = α * e.d + β * e.d := by rw [← add_mul, hαβ, _root_.one_mul]
      rw [e1, e2]
      have e3 : ε = α * ε + β * ε := by rw [← add_mul, hαβ, _root_.one_mul]
      rw [e3]
      nlinarith [mul_le_mul_of_nonneg_left hp hα, mul_le_mul_of_nonneg_left hp' hβ]
    exact convexHull_min (s := {v | v ∈ b.vertices}) (fun v hv' => hv v hv') hconv hq
  have hsplit : e.n.dot c = e.n.dot (inv.call1 q t) + e.n.dot (c - inv.call1 q t) := by simp [V3.dot]; ring
  have hcs := V3.dot_le e.n (c - inv.call1 q t)
  have hd : V3.norm (c - inv.call1 q t) = V3.dist q (m.call1 c t) := by
    rw [← hrigid]
    unfold V3.dist
    rw [← V3.norm_neg]; congr 1; ext <;> simp
  rw [hd] at hcs
  have hd0 : 0 ≤ V3.dist q (m.call1 c t) := V3.norm_nonneg _
  have : norm e.n * V3.dist q (m.call1 c t) ≤ (1 + ε) * V3.dist q (m.call1 c t) := mul_le_mul_of_nonneg_right hn hd0
  linarith

/-- C52 fails: with a translation across the rotation axis a sphere whose centre is moved onto the very centre of the beam at the
last sample is masked out there.  Quarter turn about z with translation (30,0,0); the beam is the cube `[-10,10]³`. -/
theorem C52_masked_out_fails (hullEq : List V3 → List HalfSpace) (b : Beam)
    (hb : b.vertices = [⟨-10, -10, -10⟩, ⟨-10, -10, 10⟩, ⟨-10, 10, -10⟩, ⟨-10, 10, 10⟩, ⟨10, -10, -10⟩, ⟨10, -10, 10⟩, ⟨10, 10, -10⟩, ⟨10, 10, 10⟩])
    (hbox : ∀ e : HalfSpace, e ∈ hullEq [⟨-40, 10, -10⟩, ⟨-40, 10, 10⟩, ⟨-20, 10, -10⟩, ⟨-20, 10, 10⟩, ⟨-40, -10, -10⟩, ⟨-40, -10, 10⟩, ⟨-20, -10, -10⟩, ⟨-20, -10, 10⟩] ↔
      e ∈ ([⟨⟨1, 0, 0⟩, 20⟩, ⟨⟨-1, 0, 0⟩, -40⟩, ⟨⟨0, 1, 0⟩, -10⟩, ⟨⟨0, -1, 0⟩, -10⟩, ⟨⟨0, 0, 1⟩, -10⟩, ⟨⟨0, 0, -1⟩, -10⟩] : List HalfSpace)) :
    ∃ m inv : Motion, Motion.new ⟨0, 0, 1⟩ (Real.pi / 2) ⟨30, 0, 0⟩ 0 = .ok m ∧ m.inverse = .ok inv ∧
      m.call1 ⟨0, 30, 0⟩ 1 = 0 ∧ candidate hullEq b inv 1 ⟨0, 30, 0⟩ 1 = false := by
  have hp := Real.pi_pos
  have hax : axisAccepted ⟨0, 0, 1⟩ := by
    unfold axisAccepted allclose; rw [norm_ez]; norm_num
  have hm : Motion.new ⟨0, 0, 1⟩ (Real.pi / 2) ⟨30, 0, 0⟩ 0 = .ok ⟨⟨0, 0, 1⟩, Real.pi / 2, ⟨30, 0, 0⟩, 0⟩ := by
    unfold Motion.new
    rw [if_pos, if_pos hax]
    constructor <;> linarith
  refine ⟨_, _, hm, C07_inverse_exists _ _ _ _ _ hm, ?_, ?_⟩
  · ext <;> simp [Motion.call1, rotMat, crossMat, crossMat2, mulVec, V3.dot, vecMul] <;> norm_num
  · have hv : ∀ x y z : ℝ, (⟨-⟨0, 0, 1⟩, Real.pi / 2, -⟨30, 0, 0⟩, 0⟩ : Motion).call1 ⟨x, y, z⟩ 1 = ⟨y - 30, -x, z⟩ := by
      intro x y z
      ext <;> simp [Motion.call1, rotMat, crossMat, crossMat2, mulVec, V3.dot, vecMul] <;> norm_num <;> ring
    unfold candidate
    rw [hb]
    simp only [List.map_cons, List.map_nil, hv]
    norm_num
    refine ⟨⟨⟨0, 1, 0⟩, -10⟩, (hbox _).mpr (by simp), ?_⟩
    simp [V3.dot]; norm_num

/-- the hypotheses of the conservative theorem are met: rotation only, exact facets of the cube at time 0 -/
example : ∃ (m inv : Motion) (q : V3), Motion.new ⟨0, 0, 1⟩ (Real.pi / 2) 0 0 = .ok m ∧ m.inverse = .ok inv ∧ cross (⟨0, 0, 1⟩ : V3) 0 = 0 ∧
    q ∈ convexHull ℝ {v : V3 | v ∈ [(⟨1, 0, 0⟩ : V3), ⟨3, 0, 0⟩]} ∧ V3.dist q (m.call1 ⟨2, 0, 0⟩ 0) * (1 + 0) + 0 ≤ 1 := by
  have hp := Real.pi_pos
  have hax : axisAccepted ⟨0, 0, 1⟩ := by
    unfold axisAccepted allclose; rw [norm_ez]; norm_num
  have hm : Motion.new ⟨0, 0, 1⟩ (Real.pi / 2) 0 0 = .ok ⟨⟨0, 0, 1⟩, Real.pi / 2, 0, 0⟩ := by
    unfold Motion.new
    rw [if_pos, if_pos hax]
    constructor <;> linarith
  refine ⟨_, _, ⟨1, 0, 0⟩, hm, C07_inverse_exists _ _ _ _ _ hm, by ext <;> simp [cross], subset_convexHull ℝ _ (by simp), ?_⟩
  rw [C06_identity_at_time_zero]
  unfold V3.dist V3.norm
  simp [nsq, V3.dot]; norm_num

end XRD
