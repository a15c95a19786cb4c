import Verif.Lemmas.Motion
import Mathlib.Analysis.SpecialFunctions.Trigonometric.Inverse

/-! Euler's rotation theorem: every rotation matrix is a rotation about an axis by an angle in `[0, π]` determined by the trace. -/

namespace XRD
open V3 M3

/-- entries of a rotation equal their cofactors -/
theorem IsRot.cofactors {R : M3} (h : IsRot R) :
    R.r0.x = R.r1.y * R.r2.z - R.r1.z * R.r2.y ∧ R.r0.y = R.r1.z * R.r2.x - R.r1.x * R.r2.z ∧ R.r0.z = R.r1.x * R.r2.y - R.r1.y * R.r2.x ∧
    R.r1.x = R.r0.z * R.r2.y - R.r0.y * R.r2.z ∧ R.r1.y = R.r0.x * R.r2.z - R.r0.z * R.r2.x ∧ R.r1.z = R.r0.y * R.r2.x - R.r0.x * R.r2.y ∧
    R.r2.x = R.r0.y * R.r1.z - R.r0.z * R.r1.y ∧ R.r2.y = R.r0.z * R.r1.x - R.r0.x * R.r1.z ∧ R.r2.z = R.r0.x * R.r1.y - R.r0.y * R.r1.x := by
  have hd : R.det ≠ 0 := by rw [h.2.2]; exact one_ne_zero
  have e := inv_unique hd h.1
  unfold M3.inv at e
  rw [h.2.2] at e
  simp only [M3.ext_iff, V3.ext_iff, M3.tr, smul_r0, smul_r1, smul_r2, smul_x, smul_y, smul_z, div_one, one_mul] at e
  obtain ⟨⟨a, b, c⟩, ⟨d, e, f⟩, g, i, j⟩ := e
  exact ⟨a.symm, d.symm, g.symm, b.symm, e.symm, i.symm, c.symm, f.symm, j.symm⟩

/-- rows and columns of a rotation are orthonormal -/
theorem IsRot.entries {R : M3} (h : IsRot R) :
    (R.r0.x * R.r0.x + R.r0.y * R.r0.y + R.r0.z * R.r0.z = 1 ∧ R.r1.x * R.r1.x + R.r1.y * R.r1.y + R.r1.z * R.r1.z = 1 ∧
      R.r2.x * R.r2.x + R.r2.y * R.r2.y + R.r2.z * R.r2.z = 1) ∧
    (R.r0.x * R.r1.x + R.r0.y * R.r1.y + R.r0.z * R.r1.z = 0 ∧ R.r0.x * R.r2.x + R.r0.y * R.r2.y + R.r0.z * R.r2.z = 0 ∧
      R.r1.x * R.r2.x + R.r1.y * R.r2.y + R.r1.z * R.r2.z = 0) ∧
    (R.r0.x * R.r0.y + R.r1.x * R.r1.y + R.r2.x * R.r2.y = 0 ∧ R.r0.x * R.r0.z + R.r1.x * R.r1.z + R.r2.x * R.r2.z = 0 ∧
      R.r0.y * R.r0.z + R.r1.y * R.r1.z + R.r2.y * R.r2.z = 0) ∧
    (R.r0.x * R.r0.x + R.r1.x * R.r1.x + R.r2.x * R.r2.x = 1 ∧ R.r0.y * R.r0.y + R.r1.y * R.r1.y + R.r2.y * R.r2.y = 1 ∧
      R.r0.z * R.r0.z + R.r1.z * R.r1.z + R.r2.z * R.r2.z = 1) := by
  have e1 := h.1
  have e2 := h.2.1
  simp only [M3.ext_iff, V3.ext_iff, M3.tr, mul_r0, mul_r1, mul_r2, vecMul, one_r0, one_r1, one_r2] at e1 e2
  obtain ⟨⟨a, b, c⟩, ⟨d, e, f⟩, g, i, j⟩ := e1
  obtain ⟨⟨a', b', c'⟩, ⟨d', e', f'⟩, g', i', j'⟩ := e2
  exact ⟨⟨a', e', j'⟩, ⟨b', c', f'⟩, ⟨b, c, f⟩, a, e, j⟩

/-- the vector of the skew part of a rotation -/
def skewVec (R : M3) : V3 := ⟨R.r2.y - R.r1.z, R.r0.z - R.r2.x, R.r1.x - R.r0.y⟩

theorem nsq_skewVec {R : M3} (h : IsRot R) : nsq (skewVec R) = (R.trace + 1) * (3 - R.trace) := by
  obtain ⟨c1, c2, c3, c4, c5, c6, c7, c8, c9⟩ := IsRot.cofactors h
  obtain ⟨⟨n1, n2, n3⟩, -, -, -⟩ := IsRot.entries h
  unfold skewVec nsq V3.dot M3.trace
  linear_combination n1 + n2 + n3 - 2 * c1 - 2 * c5 - 2 * c9

theorem skew_products {R : M3} (h : IsRot R) :
    (skewVec R).x * (skewVec R).x = (R.r0.x - ((R.r0.x + R.r1.y + R.r2.z) - 1) / 2) * (2 * ((R.r0.x + R.r1.y + R.r2.z) + 1)) ∧
    (skewVec R).y * (skewVec R).y = (R.r1.y - ((R.r0.x + R.r1.y + R.r2.z) - 1) / 2) * (2 * ((R.r0.x + R.r1.y + R.r2.z) + 1)) ∧
    (skewVec R).z * (skewVec R).z = (R.r2.z - ((R.r0.x + R.r1.y + R.r2.z) - 1) / 2) * (2 * ((R.r0.x + R.r1.y + R.r2.z) + 1)) ∧
    (skewVec R).x * (skewVec R).y = (R.r0.y + R.r1.x) / 2 * (2 * ((R.r0.x + R.r1.y + R.r2.z) + 1)) ∧
    (skewVec R).x * (skewVec R).z = (R.r0.z + R.r2.x) / 2 * (2 * ((R.r0.x + R.r1.y + R.r2.z) + 1)) ∧
    (skewVec R).y * (skewVec R).z = (R.r1.z + R.r2.y) / 2 * (2 * ((R.r0.x + R.r1.y + R.r2.z) + 1)) := by
  obtain ⟨c1, c2, c3, c4, c5, c6, c7, c8, c9⟩ := IsRot.cofactors h
  obtain ⟨⟨n1, n2, n3⟩, ⟨r1, r2, r3⟩, ⟨k1, k2, k3⟩, m1, m2, m3⟩ := IsRot.entries h
  unfold skewVec
  dsimp only
  refine ⟨?_, ?_, ?_, ?_, ?_, ?_⟩
  · linear_combination n2 + n3 - m1 - 2 * c1
  · linear_combination n1 + n3 - m2 - 2 * c5
  · linear_combination n1 + n2 - m3 - 2 * c9
  · linear_combination -c2 - c4 - k1 - r1
  · linear_combination -c3 - c7 - k2 - r2
  · linear_combination -c6 - c8 - k3 - r3

theorem IsRot.trace_range {R : M3} (h : IsRot R) : -1 ≤ (R.trace - 1) / 2 ∧ (R.trace - 1) / 2 ≤ 1 := by
  have := nsq_skewVec h
  have h0 := nsq_nonneg (skewVec R)
  rw [this] at h0
  constructor
  · by_contra hc
    push Not at hc
    nlinarith
  · by_contra hc
    push Not at hc
    nlinarith

/-- only the identity has trace 3 -/
theorem rot_eq_one {R : M3} (h : IsRot R) (ht : R.trace = 3) : R = 1 := by
  obtain ⟨⟨n1, n2, n3⟩, -, -, -⟩ := IsRot.entries h
  unfold M3.trace at ht
  have w : ∀ a b c : ℝ, a * a + b * b + c * c = 1 → a ≤ 1 := by
    intro a b c e; nlinarith only [mul_self_nonneg b, mul_self_nonneg c, e]
  have w' : ∀ a b c : ℝ, a = 1 → a * a + b * b + c * c = 1 → b = 0 ∧ c = 0 := by
    intro a b c e1 e2
    subst e1
    exact ⟨mul_self_eq_zero.mp (by linarith only [mul_self_nonneg b, mul_self_nonneg c, e2]),
      mul_self_eq_zero.mp (by linarith only [mul_self_nonneg b, mul_self_nonneg c, e2])⟩
  have m2 : R.r1.y * R.r1.y + R.r1.x * R.r1.x + R.r1.z * R.r1.z = 1 := by linarith only [n2]
  have m3 : R.r2.z * R.r2.z + R.r2.x * R.r2.x + R.r2.y * R.r2.y = 1 := by linarith only [n3]
  have d1 := w _ _ _ n1
  have d2 := w _ _ _ m2
  have d3 := w _ _ _ m3
  have e1 : R.r0.x = 1 := by linarith only [d1, d2, d3, ht]
  have e2 : R.r1.y = 1 := by linarith only [d1, d2, d3, ht]
  have e3 : R.r2.z = 1 := by linarith only [d1, d2, d3, ht]
  obtain ⟨f1, f2⟩ := w' _ _ _ e1 n1
  obtain ⟨f3, f4⟩ := w' _ _ _ e2 m2
  obtain ⟨f5, f6⟩ := w' _ _ _ e3 m3
  ext <;> simp only [one_r0, one_r1, one_r2] <;> assumption

/-- entries of the Rodrigues matrix about a unit axis -/
theorem rotMat_entries {n : V3} (hn : nsq n = 1) (θ : ℝ) : rotMat n θ =
    ⟨⟨Real.cos θ + (1 - Real.cos θ) * (n.x * n.x), (1 - Real.cos θ) * (n.x * n.y) - Real.sin θ * n.z, (1 - Real.cos θ) * (n.x * n.z) + Real.sin θ * n.y⟩,
     ⟨(1 - Real.cos θ) * (n.x * n.y) + Real.sin θ * n.z, Real.cos θ + (1 - Real.cos θ) * (n.y * n.y), (1 - Real.cos θ) * (n.y * n.z) - Real.sin θ * n.x⟩,
     ⟨(1 - Real.cos θ) * (n.x * n.z) - Real.sin θ * n.y, (1 - Real.cos θ) * (n.y * n.z) + Real.sin θ * n.x, Real.cos θ + (1 - Real.cos θ) * (n.z * n.z)⟩⟩ := by
  unfold nsq V3.dot at hn
  ext <;> simp [rotMat, crossMat, crossMat2, vecMul]
  · linear_combination (1 - Real.cos θ) * (-hn)
  · ring
  · ring
  · ring
  · linear_combination (1 - Real.cos θ) * (-hn)
  · ring
  · ring
  · ring
  · linear_combination (1 - Real.cos θ) * (-hn)

theorem trace_rotMat {n : V3} (hn : nsq n = 1) (θ : ℝ) : (rotMat n θ).trace = 1 + 2 * Real.cos θ := by
  rw [rotMat_entries hn]
  unfold nsq V3.dot at hn
  unfold M3.trace
  linear_combination (1 - Real.cos θ) * hn

/-- Euler's rotation theorem -/
theorem euler_rotation {R : M3} (h : IsRot R) : ∃ n : V3, nsq n = 1 ∧ R = rotMat n (Real.arccos ((R.trace - 1) / 2)) := by
  obtain ⟨hl, hu⟩ := IsRot.trace_range h
  obtain ⟨c1, c2, c3, c4, c5, c6, c7, c8, c9⟩ := IsRot.cofactors h
  obtain ⟨⟨n1, n2, n3⟩, ⟨r1, r2, r3⟩, ⟨k1, k2, k3⟩, -⟩ := IsRot.entries h
  have hcos : Real.cos (Real.arccos ((R.trace - 1) / 2)) = (R.trace - 1) / 2 := Real.cos_arccos hl hu
  have hsin : Real.sin (Real.arccos ((R.trace - 1) / 2)) = Real.sqrt (1 - ((R.trace - 1) / 2) ^ 2) := Real.sin_arccos _
  have hv := nsq_skewVec h
  set t := R.trace with ht
  by_cases h0 : nsq (skewVec R) = 0
  · -- a half turn or the identity
    have hz := nsq_eq_zero.mp h0
    unfold skewVec at hz
    simp only [V3.ext_iff, zero_x, zero_y, zero_z] at hz
    obtain ⟨z1, z2, z3⟩ := hz
    rw [h0] at hv
    have htd : t = R.r0.x + R.r1.y + R.r2.z := ht
    rcases mul_eq_zero.mp hv.symm with e | e
    · -- half turn
      have et : (t - 1) / 2 = -1 := by linarith
      have hpi : Real.arccos ((t - 1) / 2) = Real.pi := by rw [et, Real.arccos_neg_one]
      rw [hpi]
      have key : ∀ n : V3, nsq n = 1 → 2 * (n.x * n.x) = 1 + R.r0.x → 2 * (n.y * n.y) = 1 + R.r1.y → 2 * (n.z * n.z) = 1 + R.r2.z →
          2 * (n.x * n.y) = R.r0.y → 2 * (n.x * n.z) = R.r0.z → 2 * (n.y * n.z) = R.r1.z → ∃ n : V3, nsq n = 1 ∧ R = rotMat n Real.pi := by
        intro n hn q1 q2 q3 q4 q5 q6
        refine ⟨n, hn, ?_⟩
        rw [rotMat_entries hn]
        ext <;> simp only [Real.cos_pi, Real.sin_pi] <;> linarith
      have hd : 0 < 1 + R.r0.x ∨ 0 < 1 + R.r1.y ∨ 0 < 1 + R.r2.z := by
        by_contra hc
        push Not at hc
        linarith [hc.1, hc.2.1, hc.2.2]
      have y1 : R.r2.y = R.r1.z := by linarith
      have y2 : R.r2.x = R.r0.z := by linarith
      have y3 : R.r1.x = R.r0.y := by linarith
      rw [y1] at c1 c6 c4
      rw [y2] at c5 c6 c7
      rw [y3] at c9 c4
      have A12 : R.r0.y * R.r0.y = (1 + R.r0.x) * (1 + R.r1.y) := by nlinarith only [c1, c4, c5, c6, c7, c9, e, htd]
      have A13 : R.r0.z * R.r0.z = (1 + R.r0.x) * (1 + R.r2.z) := by nlinarith only [c1, c4, c5, c6, c7, c9, e, htd]
      have A23 : R.r1.z * R.r1.z = (1 + R.r1.y) * (1 + R.r2.z) := by nlinarith only [c1, c4, c5, c6, c7, c9, e, htd]
      have B1 : R.r0.y * R.r0.z = (1 + R.r0.x) * R.r1.z := by nlinarith only [c1, c4, c5, c6, c7, c9, e, htd]
      have B2 : R.r0.y * R.r1.z = (1 + R.r1.y) * R.r0.z := by nlinarith only [c1, c4, c5, c6, c7, c9, e, htd]
      have B3 : R.r0.z * R.r1.z = (1 + R.r2.z) * R.r0.y := by nlinarith only [c1, c4, c5, c6, c7, c9, e, htd]
      have hs : ∀ a : ℝ, 0 < a → 1 / Real.sqrt (2 * a) * (1 / Real.sqrt (2 * a)) * (2 * a) = 1 := by
        intro a ha
        have : Real.sqrt (2 * a) * Real.sqrt (2 * a) = 2 * a := Real.mul_self_sqrt (by linarith)
        have hne : Real.sqrt (2 * a) ≠ 0 := by positivity
        field_simp
        rw [pow_two, this]
      rcases hd with hd | hd | hd
      · have hc := hs _ hd
        set c := 1 / Real.sqrt (2 * (1 + R.r0.x))
        refine key ⟨c * (1 + R.r0.x), c * R.r0.y, c * R.r0.z⟩ ?_ ?_ ?_ ?_ ?_ ?_ ?_
        · simp only [nsq, V3.dot]; linear_combination c * c * A12 + c * c * A13 + hc + c * c * (1 + R.r0.x) * (e - htd)
        · linear_combination (1 + R.r0.x) * hc
        · linear_combination 2 * c * c * A12 + (1 + R.r1.y) * hc
        · linear_combination 2 * c * c * A13 + (1 + R.r2.z) * hc
        · linear_combination R.r0.y * hc
        · linear_combination R.r0.z * hc
        · linear_combination 2 * c * c * B1 + R.r1.z * hc
      · have hc := hs _ hd
        set c := 1 / Real.sqrt (2 * (1 + R.r1.y))
        refine key ⟨c * R.r0.y, c * (1 + R.r1.y), c * R.r1.z⟩ ?_ ?_ ?_ ?_ ?_ ?_ ?_
        · simp only [nsq, V3.dot]; linear_combination c * c * A12 + c * c * A23 + hc + c * c * (1 + R.r1.y) * (e - htd)
        · linear_combination 2 * c * c * A12 + (1 + R.r0.x) * hc
        · linear_combination (1 + R.r1.y) * hc
        · linear_combination 2 * c * c * A23 + (1 + R.r2.z) * hc
        · linear_combination R.r0.y * hc
        · linear_combination 2 * c * c * B2 + R.r0.z * hc
        · linear_combination R.r1.z * hc
      · have hc := hs _ hd
        set c := 1 / Real.sqrt (2 * (1 + R.r2.z))
        refine key ⟨c * R.r0.z, c * R.r1.z, c * (1 + R.r2.z)⟩ ?_ ?_ ?_ ?_ ?_ ?_ ?_
        · simp only [nsq, V3.dot]; linear_combination c * c * A13 + c * c * A23 + hc + c * c * (1 + R.r2.z) * (e - htd)
        · linear_combination 2 * c * c * A13 + (1 + R.r0.x) * hc
        · linear_combination 2 * c * c * A23 + (1 + R.r1.y) * hc
        · linear_combination (1 + R.r2.z) * hc
        · linear_combination 2 * c * c * B3 + R.r0.y * hc
        · linear_combination R.r0.z * hc
        · linear_combination R.r1.z * hc
    · -- identity
      have et : (t - 1) / 2 = 1 := by linarith
      have h0' : Real.arccos ((t - 1) / 2) = 0 := by rw [et, Real.arccos_one]
      rw [h0']
      refine ⟨⟨0, 0, 1⟩, by simp [nsq, V3.dot], ?_⟩
      rw [rotMat_zero]
      exact rot_eq_one h (by linarith)
  · have hs2 : 1 - ((t - 1) / 2) ^ 2 = nsq (skewVec R) / 4 := by rw [hv]; ring
    have hpos : 0 < nsq (skewVec R) := lt_of_le_of_ne (nsq_nonneg _) (Ne.symm h0)
    set s := Real.sqrt (1 - ((t - 1) / 2) ^ 2) with hs
    have hs0 : 0 < s := Real.sqrt_pos.mpr (by rw [hs2]; positivity)
    have hss : s * s = nsq (skewVec R) / 4 := by rw [hs, Real.mul_self_sqrt (by rw [hs2]; positivity), hs2]
    have ht1 : t + 1 ≠ 0 := by intro e; rw [e, zero_mul] at hv; exact h0 hv
    have htd : t = R.r0.x + R.r1.y + R.r2.z := ht
    have hunit : nsq ((1 / (2 * s)) • skewVec R) = 1 := by
      have : nsq ((1 / (2 * s)) • skewVec R) = nsq (skewVec R) / (4 * (s * s)) := by
        simp only [nsq, V3.dot, smul_x, smul_y, smul_z]; field_simp; ring
      rw [this, hss]; field_simp
    refine ⟨(1 / (2 * s)) • skewVec R, hunit, ?_⟩
    · rw [rotMat_entries hunit]
      rw [hcos, hsin]
      have hq : ∀ a b : ℝ, (1 - (t - 1) / 2) * (1 / (2 * s) * a * (1 / (2 * s) * b)) = a * b / (2 * (t + 1)) := by
        intro a b
        have h3 : 3 - t ≠ 0 := by intro e; rw [e, mul_zero] at hv; exact h0 hv
        have : s * s * 4 = (t + 1) * (3 - t) := by rw [hss, hv]; ring
        rw [eq_div_iff (by simpa using ht1)]
        field_simp
        linear_combination (-(a * b)) * this
      have hl' : ∀ a : ℝ, s * (1 / (2 * s) * a) = a / 2 := by intro a; field_simp
      simp only [smul_x, smul_y, smul_z, hq, hl']
      have hdiv : ∀ a b : ℝ, a = b * (2 * (t + 1)) → a / (2 * (t + 1)) = b := by
        intro a b e; rw [e]; field_simp
      obtain ⟨q11, q22, q33, q12, q13, q23⟩ := skew_products h
      rw [← htd] at q11 q22 q33 q12 q13 q23
      have P12 := hdiv _ _ q12
      have P13 := hdiv _ _ q13
      have P23 := hdiv _ _ q23
      have P11 := hdiv _ _ q11
      have P22 := hdiv _ _ q22
      have P33 := hdiv _ _ q33
      rw [P11, P22, P33, P12, P13, P23]
      unfold skewVec
      ext <;> dsimp only <;> ring
end XRD
