import Verif.Spec
import Verif.Model.Motion

/-! Lemmas about rotation matrices. -/

namespace XRD
open V3 M3

theorem crossMat_mulVec (r v : V3) : (crossMat r).mulVec v = cross r v := by
  ext <;> simp [crossMat, mulVec, V3.dot, cross] <;> ring

theorem crossMat2_mulVec (r v : V3) : (crossMat2 r).mulVec v = (dot r v) • r - (nsq r) • v := by
  ext <;> simp [crossMat2, crossMat, mulVec, V3.dot, vecMul, nsq] <;> ring

theorem rotMat_mulVec (r : V3) (θ : ℝ) (v : V3) :
    (rotMat r θ).mulVec v = v + Real.sin θ • cross r v + (1 - Real.cos θ) • ((dot r v) • r - (nsq r) • v) := by
  rw [← crossMat2_mulVec, ← crossMat_mulVec]
  ext <;> simp [rotMat, mulVec, V3.dot] <;> ring

/-- The matrix of the code is the textbook Rodrigues rotation when the axis is exactly unit. -/
theorem rotMat_eq_spec {r : V3} (h : nsq r = 1) (θ : ℝ) (v : V3) :
    (rotMat r θ).mulVec v = Spec.rotate r θ v := by
  rw [rotMat_mulVec, h, Spec.rotate]
  ext <;> simp <;> ring

theorem rotMat_zero (r : V3) : rotMat r 0 = 1 := by
  ext <;> simp [rotMat]

theorem rotMat_neg_axis (r : V3) (θ : ℝ) : rotMat (-r) θ = (rotMat r θ).tr := by
  ext <;> simp [rotMat, crossMat, crossMat2, vecMul, tr] <;> exact Or.inl (mul_comm _ _)
theorem rotMat_neg_angle (r : V3) (θ : ℝ) : rotMat r (-θ) = (rotMat r θ).tr := by
  ext <;> simp [rotMat, crossMat, crossMat2, vecMul, tr] <;> exact Or.inl (mul_comm _ _)

theorem rotMat_mul {r : V3} (h : nsq r = 1) (a b : ℝ) : rotMat r a * rotMat r b = rotMat r (a + b) := by
  have h' : r.x * r.x + r.y * r.y + r.z * r.z = 1 := h
  have hz : r.z * r.z = 1 - r.x * r.x - r.y * r.y := by linarith
  simp only [rotMat, Real.sin_add, Real.cos_add]
  generalize Real.sin a = sa
  generalize Real.cos a = ca
  generalize Real.sin b = sb
  generalize Real.cos b = cb
  have key : ∀ v : V3, (((1 : M3) + sa • crossMat r + (1 - ca) • crossMat2 r) *
      (1 + sb • crossMat r + (1 - cb) • crossMat2 r)).mulVec v =
      ((1 : M3) + (sa * cb + ca * sb) • crossMat r + (1 - (ca * cb - sa * sb)) • crossMat2 r).mulVec v := by
    intro v
    rw [mulVec_mul]
    have e : ∀ (s c : ℝ) (w : V3), ((1 : M3) + s • crossMat r + (1 - c) • crossMat2 r).mulVec w
        = w + s • cross r w + (1 - c) • ((dot r w) • r - w) := by
      intro s c w
      have := crossMat2_mulVec r w
      rw [h] at this
      have h1 : (1:ℝ) • w = w := by ext <;> simp
      rw [h1] at this
      rw [← this, ← crossMat_mulVec]
      ext <;> simp [mulVec, V3.dot] <;> ring
    rw [e, e, e]
    ext <;> simp [V3.dot, cross]
    · linear_combination (-(sa*sb*v.x) + (1-ca)*(1-cb)*(r.x * (r.x*v.x+r.y*v.y+r.z*v.z)) + (1-ca)*sb*0) * h'
    · linear_combination (-(sa*sb*v.y) + (1-ca)*(1-cb)*(r.y * (r.x*v.x+r.y*v.y+r.z*v.z))) * h'
    · linear_combination (-(sa*sb*v.z) + (1-ca)*(1-cb)*(r.z * (r.x*v.x+r.y*v.y+r.z*v.z))) * h'
  have ext_mulVec : ∀ A B : M3, (∀ v, A.mulVec v = B.mulVec v) → A = B := by
    intro A B hAB
    have h1 := hAB ⟨1,0,0⟩
    have h2 := hAB ⟨0,1,0⟩
    have h3 := hAB ⟨0,0,1⟩
    simp [mulVec, V3.dot] at h1 h2 h3
    ext
    · exact h1.1
    · exact h2.1
    · exact h3.1
    · exact h1.2.1
    · exact h2.2.1
    · exact h3.2.1
    · exact h1.2.2
    · exact h2.2.2
    · exact h3.2.2
  exact ext_mulVec _ _ key

/-- Exact length of a rotated vector for an axis of any length: only the component orthogonal to the axis is
stretched, by the factor `1 + (1 - cos θ)² |r|² (|r|² - 1)` in squared length. -/
theorem nsq_rotMat_mulVec (r : V3) (θ : ℝ) (v : V3) :
    ((rotMat r θ).mulVec v).nsq = v.nsq + (1 - Real.cos θ) ^ 2 * (r.nsq - 1) * (r.nsq * v.nsq - (dot r v) ^ 2) := by
  rw [rotMat_mulVec, ← lagrange]
  have hs := Real.sin_sq_add_cos_sq θ
  simp only [nsq, V3.dot, cross, V3.add_x, V3.add_y, V3.add_z, V3.sub_x, V3.sub_y, V3.sub_z, V3.smul_x, V3.smul_y, V3.smul_z]
  generalize Real.sin θ = s at *
  generalize Real.cos θ = c at *
  linear_combination ((r.y*v.z-r.z*v.y)^2 + (r.z*v.x-r.x*v.z)^2 + (r.x*v.y-r.y*v.x)^2) * hs

/-- For every accepted axis a rotation changes squared lengths by a relative error of at most `1e-4`. -/
theorem nearly_isometric {a : V3} (hax : axisAccepted a) (θ : ℝ) (v : V3) :
    |((rotMat a θ).mulVec v).nsq - v.nsq| ≤ 1 / 10 ^ 4 * v.nsq := by
  rw [nsq_rotMat_mulVec]
  have hcs := dot_sq_le a v
  have hc1 := Real.cos_le_one θ
  have hc2 := Real.neg_one_le_cos θ
  have hsq := sq_nonneg (dot a v)
  unfold axisAccepted allclose at hax
  rw [abs_one] at hax
  obtain ⟨hx1, hx2⟩ := abs_le.mp hax
  have hn := V3.norm_sq a
  have hv := nsq_nonneg v
  set ρ := a.norm
  have hρ0 : 0 ≤ ρ := norm_nonneg a
  have b1 : ρ ^ 2 ≤ 1 + 21 / 10 ^ 6 := by nlinarith
  have b2 : 1 - 21 / 10 ^ 6 ≤ ρ ^ 2 := by nlinarith
  rw [← hn] at hcs ⊢
  have e : v.nsq + (1 - Real.cos θ) ^ 2 * (ρ ^ 2 - 1) * (ρ ^ 2 * v.nsq - dot a v ^ 2) - v.nsq
      = (ρ ^ 2 - 1) * ((1 - Real.cos θ) ^ 2 * (ρ ^ 2 * v.nsq - dot a v ^ 2)) := by ring
  rw [e, abs_mul]
  have hc3 : (1 - Real.cos θ) ^ 2 ≤ 4 := by nlinarith
  have hP0 : 0 ≤ ρ ^ 2 * v.nsq - dot a v ^ 2 := by linarith
  have hP1 : ρ ^ 2 * v.nsq - dot a v ^ 2 ≤ (1 + 21 / 10 ^ 6) * v.nsq := by nlinarith
  have hQ : |(1 - Real.cos θ) ^ 2 * (ρ ^ 2 * v.nsq - dot a v ^ 2)| ≤ 4 * ((1 + 21 / 10 ^ 6) * v.nsq) := by
    rw [abs_of_nonneg (mul_nonneg (sq_nonneg _) hP0)]
    exact mul_le_mul hc3 hP1 hP0 (by norm_num)
  have hD : |ρ ^ 2 - 1| ≤ 21 / 10 ^ 6 := by rw [abs_le]; constructor <;> linarith
  calc |ρ ^ 2 - 1| * |(1 - Real.cos θ) ^ 2 * (ρ ^ 2 * v.nsq - dot a v ^ 2)|
      ≤ 21 / 10 ^ 6 * (4 * ((1 + 21 / 10 ^ 6) * v.nsq)) :=
        mul_le_mul hD hQ (abs_nonneg _) (by norm_num)
    _ ≤ 1 / 10 ^ 4 * v.nsq := by nlinarith

theorem rotMat_isRot {r : V3} (h : nsq r = 1) (θ : ℝ) : IsRot (rotMat r θ) := by
  refine ⟨?_, ?_, ?_⟩
  · rw [← rotMat_neg_angle, rotMat_mul h]; simp [rotMat_zero]
  · rw [← rotMat_neg_angle, rotMat_mul h]; simp [rotMat_zero]
  · have h' : r.x * r.x + r.y * r.y + r.z * r.z = 1 := h
    have hs := Real.sin_sq_add_cos_sq θ
    simp [rotMat, crossMat, crossMat2, vecMul, det]
    generalize Real.sin θ = s at *
    generalize Real.cos θ = c at *
    have e : r.z * r.z = 1 - r.x * r.x - r.y * r.y := by linarith
    have e2 : r.z ^ 2 = 1 - r.x ^2  - r.y ^ 2 := by nlinarith
    have e4 : r.z ^ 4 = (1 - r.x ^2  - r.y ^ 2)^2 := by rw [← e2]; ring
    have e3 : s ^ 2 = 1 - c ^ 2 := by linarith
    ring_nf
    simp only [e2, e4, e3]
    ring

end XRD
